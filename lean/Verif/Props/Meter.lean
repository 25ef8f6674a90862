import Verif.Spec.Meter
import Verif.Props.Emeter
import Verif.Props.IotDevice
/-!
# C101: what energy meters ask for, answer and claim
-/

namespace Kasa.Meter
open MeterSpec EmeterSpec Emeter IotSpec

section
variable (peer : Peer) (read : Reader)

theorem create_ask (module : String) (socket : Option String) (cmd : String) (args : List (String × Json)) (hm : module ≠ "context") :
    Iot.createRequest module cmd (some (.obj args)) (socket.map fun id => .arr [.str id]) = request module socket cmd args := by
  cases socket with
  | none => rfl
  | some id =>
    show Json.obj (Dict.set [("context", Json.obj [("child_ids", Json.arr [.str id])])] module (.obj [(cmd, .obj args)])) = _
    simp [Dict.set, request, Ne.symm hm]

theorem create_none (module : String) (socket : Option String) (cmd : String) :
    Iot.createRequest module cmd none (socket.map fun id => .arr [.str id]) =
      Iot.createRequest module cmd (some (.obj [])) (socket.map fun id => .arr [.str id]) := rfl

theorem call_sent (module : String) (socket : Option String) (cmd : String) (args : List (String × Json)) (hm : module ≠ "context") (sent : List Json) :
    (call peer module socket cmd (some (.obj args)) sent).2 = sent ++ [request module socket cmd args] := by
  unfold call
  rw [create_ask _ _ _ _ hm]

theorem helper_answered {module : String} (hm : module ≠ "context") (socket : Option String) (q : Question) (cmd : String) (hc : cmd = command q)
    (args : List (String × Json)) (sent : List Json) (values : List (String × Json))
    (ha : Answered module q (peer sent (request module socket cmd args)) values) :
    ∃ z, call peer module socket cmd (some (.obj args)) sent = (.ok (.obj z), sent ++ [request module socket cmd args]) ∧
      ∀ k, Dict.get? values k = Dict.get? z k := by
  obtain ⟨response, h1, h2, h3⟩ := ha
  subst hc
  rw [← create_ask _ _ _ _ hm] at h1
  obtain ⟨z, hz, hk⟩ := Iot.C23_accepted (peer sent) module (command q) _ _ response (.obj values) h1 h2 h3
  refine ⟨z, ?_, hk⟩
  unfold call
  rw [hz, create_ask _ _ _ _ hm]

theorem item_of {values z : List (String × Json)} (hk : ∀ k, Dict.get? values k = Dict.get? z k) {key : String} {l : Json}
    (hl : Dict.get? values key = some l) : Ops.item (.obj z) key = .ok l := by
  simp only [Ops.item, ← hk key, hl]

theorem lift_ok {S α : Type} (x : α) (s : S) : (PyM.lift (.ok x) : PyM S α) s = (.ok x, s) := rfl

/-- **C101, daily energy.** The daily statistics of a meter ask once, for the given year and month, the current ones if none are given, and
return the energy of each day the device then reports, in the unit asked for. -/
theorem C101_daily (now : Now) (module : String) (hm : module ≠ "context") (socket : Option String) (year month : Option Int) (kwh : Bool)
    (sent : List Json) :
    (∀ values l, Answered module (.days (orNow year now.year) (orNow month now.month))
        (peer sent (ask module socket (.days (orNow year now.year) (orNow month now.month)))) values →
      Dict.get? values "day_list" = some l → Sound "day" (read l) →
      ∃ stats, (dailyStats peer read now module socket year month kwh sent).1 = .ok stats ∧ EnergyBy "day" kwh (read l) stats) ∧
    (dailyStats peer read now module socket year month kwh sent).2 =
      sent ++ [ask module socket (.days (orNow year now.year) (orNow month now.month))] := by
  have hy : year.getD now.year = orNow year now.year := by cases year <;> rfl
  have hmo : month.getD now.month = orNow month now.month := by cases month <;> rfl
  constructor
  · intro values l ha hl hs
    obtain ⟨z, hz, hk⟩ := helper_answered peer hm socket (.days (orNow year now.year) (orNow month now.month)) "get_daystat" rfl _ sent values ha
    obtain ⟨r, h1, h2, h3⟩ := C28_stats "day" kwh (read l) hs.1 hs.2
    refine ⟨r, ?_, h2, h3⟩
    unfold dailyStats rawDays
    simp only [hy, hmo, PyM.bind_apply, hz, item_of hk hl, lift_ok, h1]
  · have hsent := call_sent peer module socket "get_daystat" [("year", .num (orNow year now.year)), ("month", .num (orNow month now.month))] hm sent
    unfold dailyStats rawDays
    simp only [hy, hmo, PyM.bind_apply]
    cases hc : call peer module socket "get_daystat" (some (.obj [("year", .num (orNow year now.year)), ("month", .num (orNow month now.month))])) sent with
    | mk r s =>
      rw [hc] at hsent
      cases r with
      | error e => exact hsent
      | ok x =>
        simp only
        cases Ops.item x "day_list" with
        | error e => exact hsent
        | ok l =>
          simp only [lift_ok]
          cases convert "day" kwh (read l) <;> exact hsent

/-- **C101, monthly energy.** The same by month, for the given year or the current one. -/
theorem C101_monthly (now : Now) (module : String) (hm : module ≠ "context") (socket : Option String) (year : Option Int) (kwh : Bool)
    (sent : List Json) :
    (∀ values l, Answered module (.months (orNow year now.year)) (peer sent (ask module socket (.months (orNow year now.year)))) values →
      Dict.get? values "month_list" = some l → Sound "month" (read l) →
      ∃ stats, (monthlyStats peer read now module socket year kwh sent).1 = .ok stats ∧ EnergyBy "month" kwh (read l) stats) ∧
    (monthlyStats peer read now module socket year kwh sent).2 = sent ++ [ask module socket (.months (orNow year now.year))] := by
  have hy : year.getD now.year = orNow year now.year := by cases year <;> rfl
  constructor
  · intro values l ha hl hs
    obtain ⟨z, hz, hk⟩ := helper_answered peer hm socket (.months (orNow year now.year)) "get_monthstat" rfl _ sent values ha
    obtain ⟨r, h1, h2, h3⟩ := C28_stats "month" kwh (read l) hs.1 hs.2
    refine ⟨r, ?_, h2, h3⟩
    unfold monthlyStats rawMonths
    simp only [hy, PyM.bind_apply, hz, item_of hk hl, lift_ok, h1]
  · have hsent := call_sent peer module socket "get_monthstat" [("year", .num (orNow year now.year))] hm sent
    unfold monthlyStats rawMonths
    simp only [hy, PyM.bind_apply]
    cases hc : call peer module socket "get_monthstat" (some (.obj [("year", .num (orNow year now.year))])) sent with
    | mk r s =>
      rw [hc] at hsent
      cases r with
      | error e => exact hsent
      | ok x =>
        simp only
        cases Ops.item x "month_list" with
        | error e => exact hsent
        | ok l =>
          simp only [lift_ok]
          cases convert "month" kwh (read l) <;> exact hsent

/-- **C101, use.** The statistics of use, by day and by month. -/
theorem C101_usage (now : Now) (module : String) (hm : module ≠ "context") (socket : Option String) (year month : Option Int) (sent : List Json) :
    (∀ values l, Answered module (.days (orNow year now.year) (orNow month now.month))
        (peer sent (ask module socket (.days (orNow year now.year) (orNow month now.month)))) values →
      Dict.get? values "day_list" = some l → Dated "day" (read l) → Dated "time" (read l) →
      ∃ stats, usageDays peer read now module socket year month sent =
        (.ok stats, sent ++ [ask module socket (.days (orNow year now.year) (orNow month now.month))]) ∧ UseBy "day" (read l) stats) ∧
    (∀ values l, Answered module (.months (orNow year now.year)) (peer sent (ask module socket (.months (orNow year now.year)))) values →
      Dict.get? values "month_list" = some l → Dated "month" (read l) → Dated "time" (read l) →
      ∃ stats, usageMonths peer read now module socket year sent = (.ok stats, sent ++ [ask module socket (.months (orNow year now.year))]) ∧
        UseBy "month" (read l) stats) := by
  have hy : year.getD now.year = orNow year now.year := by cases year <;> rfl
  have hmo : month.getD now.month = orNow month now.month := by cases month <;> rfl
  constructor
  · intro values l ha hl hd ht
    obtain ⟨z, hz, hk⟩ := helper_answered peer hm socket (.days (orNow year now.year) (orNow month now.month)) "get_daystat" rfl _ sent values ha
    obtain ⟨⟨r, h1, h2, h3⟩, _⟩ := C28_usage "day" (read l) hd ht
    refine ⟨r, ?_, h2, h3⟩
    unfold usageDays rawDays
    simp only [hy, hmo, PyM.bind_apply, hz, item_of hk hl, lift_ok, h1]
    rfl
  · intro values l ha hl hd ht
    obtain ⟨z, hz, hk⟩ := helper_answered peer hm socket (.months (orNow year now.year)) "get_monthstat" rfl _ sent values ha
    obtain ⟨⟨r, h1, h2, h3⟩, _⟩ := C28_usage "month" (read l) hd ht
    refine ⟨r, ?_, h2, h3⟩
    unfold usageMonths rawMonths
    simp only [hy, PyM.bind_apply, hz, item_of hk hl, lift_ok, h1]
    rfl

/-- **C101, erasing and asking anew.** Erasing the statistics of energy and of use are different commands, each sent once; and `get_status` asks
the device and returns the readings it then gives. -/
theorem C101_commands (module : String) (hm : module ≠ "context") (socket : Option String) (sent : List Json) (values : List (String × Json)) :
    (Answered module .eraseEnergy (peer sent (ask module socket .eraseEnergy)) values →
      ∃ z, eraseEnergy peer module socket sent = (.ok (.obj z), sent ++ [ask module socket .eraseEnergy]) ∧ ∀ k, Dict.get? z k = Dict.get? values k) ∧
    (Answered module .eraseUsage (peer sent (ask module socket .eraseUsage)) values →
      ∃ z, eraseUsage peer module socket sent = (.ok (.obj z), sent ++ [ask module socket .eraseUsage]) ∧ ∀ k, Dict.get? z k = Dict.get? values k) ∧
    (Answered module .status (peer sent (ask module socket .status)) values →
      ∃ z, getStatus peer module socket sent = (.ok (.obj z), sent ++ [ask module socket .status]) ∧ ∀ k, Dict.get? z k = Dict.get? values k) := by
  refine ⟨?_, ?_, ?_⟩
  · intro ha
    obtain ⟨z, hz, hk⟩ := helper_answered peer hm socket .eraseEnergy "erase_emeter_stat" rfl [] sent values ha
    exact ⟨z, hz, fun k => (hk k).symm⟩
  · intro ha
    obtain ⟨z, hz, hk⟩ := helper_answered peer hm socket .eraseUsage "erase_runtime_stat" rfl [] sent values ha
    exact ⟨z, hz, fun k => (hk k).symm⟩
  · intro ha
    obtain ⟨z, hz, hk⟩ := helper_answered peer hm socket .status "get_realtime" rfl [] sent values ha
    exact ⟨z, hz, fun k => (hk k).symm⟩

/-- **C101, refused.** A meter that cannot be reached, or refuses, makes each of these raise `KasaException`. -/
theorem C101_refused (now : Now) (module : String) (hm : module ≠ "context") (socket : Option String) (year month : Option Int) (kwh : Bool)
    (sent : List Json) (e : Exc) (he : e.isException = true) :
    (peer sent (ask module socket (.days (orNow year now.year) (orNow month now.month))) = .error e →
      (dailyStats peer read now module socket year month kwh sent).1 = .error .kasa) ∧
    (peer sent (ask module socket (.months (orNow year now.year))) = .error e →
      (monthlyStats peer read now module socket year kwh sent).1 = .error .kasa) ∧
    (peer sent (ask module socket .eraseEnergy) = .error e → (eraseEnergy peer module socket sent).1 = .error .kasa) ∧
    (peer sent (ask module socket .status) = .error e → (getStatus peer module socket sent).1 = .error .kasa) := by
  have hy : year.getD now.year = orNow year now.year := by cases year <;> rfl
  have hmo : month.getD now.month = orNow month now.month := by cases month <;> rfl
  have hfail : ∀ cmd args, peer sent (request module socket cmd args) = .error e →
      (call peer module socket cmd (some (.obj args)) sent).1 = .error .kasa := by
    intro cmd args h
    unfold call
    rw [← create_ask _ _ _ _ hm] at h
    rw [Iot.C23_transport _ _ _ _ _ _ h, he]
    rfl
  refine ⟨?_, ?_, ?_, ?_⟩
  · intro h
    have := hfail "get_daystat" _ h
    unfold dailyStats rawDays
    rw [hy, hmo, PyM.bind_apply]
    cases hc : call peer module socket "get_daystat" (some (.obj [("year", .num (orNow year now.year)), ("month", .num (orNow month now.month))])) sent with
    | mk r s => rw [hc] at this; simp only at this; subst this; rfl
  · intro h
    have := hfail "get_monthstat" _ h
    unfold monthlyStats rawMonths
    rw [hy, PyM.bind_apply]
    cases hc : call peer module socket "get_monthstat" (some (.obj [("year", .num (orNow year now.year))])) sent with
    | mk r s => rw [hc] at this; simp only at this; subst this; rfl
  · intro h
    exact hfail "erase_emeter_stat" [] h
  · intro h
    exact hfail "get_realtime" [] h

/-! ## Strips -/

theorem eachSocket_all {α : Type} (f : String → PyM (List Json) α) (req : String → Json) (good : String → α → Prop) :
    ∀ (ids : List String) (sent : List Json),
      (∀ pre id post, ids = pre ++ id :: post → ∃ x, f id (sent ++ pre.map req) = (.ok x, sent ++ pre.map req ++ [req id]) ∧ good id x) →
      ∃ xs, eachSocket f ids sent = (.ok xs, sent ++ ids.map req) ∧ xs.length = ids.length ∧ ∀ i (hi : i < ids.length) (hx : i < xs.length), good ids[i] xs[i]
  | [], sent, _ => ⟨[], by simp [eachSocket, Pure.pure, PyM.pure], rfl, fun i hi => absurd hi (Nat.not_lt_zero i)⟩
  | id :: ids, sent, h => by
    obtain ⟨x, hx, hg⟩ := h [] id ids rfl
    simp only [List.map_nil, List.append_nil] at hx
    obtain ⟨xs, h1, h2, h3⟩ := eachSocket_all f req good ids (sent ++ [req id]) (by
      intro pre i post hp
      have := h (id :: pre) i post (by rw [hp]; rfl)
      simpa [List.append_assoc] using this)
    refine ⟨x :: xs, ?_, by simp [h2], ?_⟩
    · unfold eachSocket
      simp only [PyM.bind_apply, hx, h1]
      simp [Pure.pure, PyM.pure]
    · intro i hi hx'
      cases i with
      | zero => exact hg
      | succ i => exact h3 i (by simpa using hi) (by simpa using hx')

theorem sums_of {period : String} {kwh : Bool} {entries : List (List EmeterSpec.Entry)} {stats : List (List (Rat × Rat))}
    (hlen : stats.length = entries.length)
    (h : ∀ i (hi : i < entries.length) (hx : i < stats.length), EnergyBy period kwh entries[i] stats[i]) :
    ∃ r, stripStats stats = .ok r ∧ EnergySum period kwh entries r := by
  obtain ⟨r, h1, h2, h3, h4⟩ := C54_stats stats (by
    intro d hd
    obtain ⟨i, hi, rfl⟩ := List.mem_iff_getElem.1 hd
    exact (h i (by omega) hi).1)
  refine ⟨r, h1, fun k => ⟨?_, ?_⟩⟩
  · rintro ⟨d, hd, hs⟩
    have hmem : k ∈ Dict.keys r := by
      rw [h4 k]
      obtain ⟨i, hi, rfl⟩ := List.mem_iff_getElem.1 hd
      refine ⟨stats[i]'(by omega), List.getElem_mem _, ?_⟩
      have := (h i hi (by omega)).2 k
      obtain ⟨w, hw⟩ := Option.isSome_iff_exists.1 hs
      rw [hw] at this
      exact Decidable.byContradiction fun hn => by rw [Dict.get?_eq_none_iff.2 hn] at this; cases this
    have hg : ∃ v, Dict.get? r k = some v := by
      cases hgr : Dict.get? r k with
      | none => exact absurd hmem (Dict.get?_eq_none_iff.1 hgr)
      | some v => exact ⟨v, rfl⟩
    obtain ⟨v, hv⟩ := hg
    have h3k := h3 k
    rw [hv, Option.getD_some] at h3k
    rw [hv, h3k]
    congr 2
    apply List.ext_getElem
    · simp [hlen]
    · intro i hi hi'
      simp only [List.length_map] at hi hi'
      simp only [List.getElem_map]
      rw [(h i hi' hi).2 k]
  · intro hn
    apply Dict.get?_eq_none_iff.2
    rw [h4 k]
    rintro ⟨d, hd, hk⟩
    obtain ⟨i, hi, rfl⟩ := List.mem_iff_getElem.1 hd
    have := (h i (by omega) hi).2 k
    rw [hn _ (List.getElem_mem _)] at this
    exact Dict.get?_eq_none_iff.1 this hk

/-- **C101, strips.** The daily statistics of a strip ask every socket, in order, for the same month, and return for each day the sum of what
the sockets report. -/
theorem C101_strip_daily (now : Now) (module : String) (hm : module ≠ "context") (sockets : List String) (year month : Option Int) (kwh : Bool)
    (sent : List Json) (lists : String → Json)
    (ha : ∀ pre id post, sockets = pre ++ id :: post → ∃ values,
      Answered module (.days (orNow year now.year) (orNow month now.month))
        (peer (sent ++ pre.map fun i => ask module (some i) (.days (orNow year now.year) (orNow month now.month)))
          (ask module (some id) (.days (orNow year now.year) (orNow month now.month)))) values ∧
      Dict.get? values "day_list" = some (lists id) ∧ Sound "day" (read (lists id))) :
    ∃ stats, stripDaily peer read now module sockets year month kwh sent =
        (.ok stats, sent ++ sockets.map fun i => ask module (some i) (.days (orNow year now.year) (orNow month now.month))) ∧
      EnergySum "day" kwh (sockets.map fun id => read (lists id)) stats := by
  obtain ⟨xs, h1, h2, h3⟩ := eachSocket_all (fun id => dailyStats peer read now module (some id) year month kwh)
    (fun i => ask module (some i) (.days (orNow year now.year) (orNow month now.month)))
    (fun id stats => EnergyBy "day" kwh (read (lists id)) stats) sockets sent (by
      intro pre id post hp
      obtain ⟨values, hv, hl, hs⟩ := ha pre id post hp
      obtain ⟨hd, hsent⟩ := C101_daily peer read now module hm (some id) year month kwh
        (sent ++ pre.map fun i => ask module (some i) (.days (orNow year now.year) (orNow month now.month)))
      obtain ⟨stats, hst, he⟩ := hd values (lists id) hv hl hs
      exact ⟨stats, Prod.ext hst hsent, he⟩)
  obtain ⟨r, hr, hsum⟩ := sums_of (period := "day") (kwh := kwh) (entries := sockets.map fun id => read (lists id)) (stats := xs) (by simp [h2]) (by
    intro i hi hx
    simp only [List.length_map] at hi
    simp only [List.getElem_map]
    exact h3 i hi hx)
  refine ⟨r, ?_, hsum⟩
  unfold stripDaily
  simp only [PyM.bind_apply, h1, hr]
  rfl

/-- **C101, strips by month.** The same by month. -/
theorem C101_strip_monthly (now : Now) (module : String) (hm : module ≠ "context") (sockets : List String) (year : Option Int) (kwh : Bool)
    (sent : List Json) (lists : String → Json)
    (ha : ∀ pre id post, sockets = pre ++ id :: post → ∃ values,
      Answered module (.months (orNow year now.year))
        (peer (sent ++ pre.map fun i => ask module (some i) (.months (orNow year now.year))) (ask module (some id) (.months (orNow year now.year)))) values ∧
      Dict.get? values "month_list" = some (lists id) ∧ Sound "month" (read (lists id))) :
    ∃ stats, stripMonthly peer read now module sockets year kwh sent =
        (.ok stats, sent ++ sockets.map fun i => ask module (some i) (.months (orNow year now.year))) ∧
      EnergySum "month" kwh (sockets.map fun id => read (lists id)) stats := by
  obtain ⟨xs, h1, h2, h3⟩ := eachSocket_all (fun id => monthlyStats peer read now module (some id) year kwh)
    (fun i => ask module (some i) (.months (orNow year now.year)))
    (fun id stats => EnergyBy "month" kwh (read (lists id)) stats) sockets sent (by
      intro pre id post hp
      obtain ⟨values, hv, hl, hs⟩ := ha pre id post hp
      obtain ⟨hd, hsent⟩ := C101_monthly peer read now module hm (some id) year kwh
        (sent ++ pre.map fun i => ask module (some i) (.months (orNow year now.year)))
      obtain ⟨stats, hst, he⟩ := hd values (lists id) hv hl hs
      exact ⟨stats, Prod.ext hst hsent, he⟩)
  obtain ⟨r, hr, hsum⟩ := sums_of (period := "month") (kwh := kwh) (entries := sockets.map fun id => read (lists id)) (stats := xs) (by simp [h2]) (by
    intro i hi hx
    simp only [List.length_map] at hi
    simp only [List.getElem_map]
    exact h3 i hi hx)
  refine ⟨r, ?_, hsum⟩
  unfold stripMonthly
  simp only [PyM.bind_apply, h1, hr]
  rfl

/-- **C101, erasing a strip.** If all sockets accept, every one of them is told once, in order, to erase its statistics.  Otherwise the first
socket that fails decides the outcome, and those after it are not told. -/
theorem C101_strip_erase (module : String) (hm : module ≠ "context") (sockets : List String) (sent : List Json) :
    ((∀ pre id post, sockets = pre ++ id :: post → ∃ values, Answered module .eraseEnergy
        (peer (sent ++ pre.map fun i => ask module (some i) .eraseEnergy) (ask module (some id) .eraseEnergy)) values) →
      stripErase peer module sockets sent = (.ok (.obj []), sent ++ sockets.map fun i => ask module (some i) .eraseEnergy)) ∧
    (∀ before bad after e, sockets = before ++ bad :: after → e.isException = true →
      (∀ pre id post, before = pre ++ id :: post → ∃ values, Answered module .eraseEnergy
        (peer (sent ++ pre.map fun i => ask module (some i) .eraseEnergy) (ask module (some id) .eraseEnergy)) values) →
      peer (sent ++ before.map fun i => ask module (some i) .eraseEnergy) (ask module (some bad) .eraseEnergy) = .error e →
      stripErase peer module sockets sent = (.error .kasa, sent ++ (before ++ [bad]).map fun i => ask module (some i) .eraseEnergy)) := by
  constructor
  · intro h
    induction sockets generalizing sent with
    | nil => simp [stripErase, Pure.pure, PyM.pure]
    | cons id ids ih =>
      obtain ⟨values, hv⟩ := h [] id ids rfl
      simp only [List.map_nil, List.append_nil] at hv
      obtain ⟨z, hz, _⟩ := (C101_commands peer module hm (some id) sent values).1 hv
      unfold stripErase
      simp only [PyM.bind_apply, hz]
      rw [ih (sent ++ [ask module (some id) .eraseEnergy]) (by
        intro pre i post hp
        have := h (id :: pre) i post (by rw [hp]; rfl)
        simpa [List.append_assoc] using this)]
      simp
  · intro before bad after e hs he h hbad
    subst hs
    induction before generalizing sent with
    | nil =>
      simp only [List.map_nil, List.append_nil] at hbad
      simp only [List.nil_append, stripErase, PyM.bind_apply]
      have h1 := (C101_refused peer (fun _ => []) ⟨0, 0⟩ module hm (some bad) none none true sent e he).2.2.1 hbad
      have h2 : (eraseEnergy peer module (some bad) sent).2 = sent ++ [ask module (some bad) .eraseEnergy] :=
        call_sent peer module (some bad) "erase_emeter_stat" [] hm sent
      cases hc : eraseEnergy peer module (some bad) sent with
      | mk r s =>
        rw [hc] at h1 h2
        simp only at h1 h2
        subst h1 h2
        rfl
    | cons id ids ih =>
      obtain ⟨values, hv⟩ := h [] id ids rfl
      simp only [List.map_nil, List.append_nil] at hv
      obtain ⟨z, hz, _⟩ := (C101_commands peer module hm (some id) sent values).1 hv
      rw [List.cons_append, stripErase]
      simp only [PyM.bind_apply, hz]
      rw [ih (sent ++ [ask module (some id) .eraseEnergy]) (by
        intro pre i post hp
        have := h (id :: pre) i post (by rw [hp]; rfl)
        simpa [List.append_assoc] using this) (by simpa [List.append_assoc] using hbad)]
      simp

/-! ## The newer devices -/

/-- **C101, newer devices.** `get_status` asks the device once and returns the readings it then gives: those of the meter if the last update
had some, else power and the energy of today, in W and kWh.  There are no statistics by period. -/
theorem C101_smart_status (numbers : Numbers) (kvs : List (String × Json)) (sent : List Json) (answer : List (String × Json)) (x : Json) :
    (Dict.has kvs "get_emeter_data" = true → peer sent (.obj [("get_emeter_data", .null)]) = .ok (.obj answer) →
      Dict.get? answer "get_emeter_data" = some x →
      smartGetStatus peer numbers (.obj kvs) sent = (.ok (numbers x), sent ++ [.obj [("get_emeter_data", .null)]])) ∧
    (Dict.has kvs "get_emeter_data" = false → peer sent (.obj [("get_energy_usage", .null)]) = .ok (.obj answer) →
      Dict.get? answer "get_energy_usage" = some x →
      ∀ p t, Dict.get? (numbers x) "current_power" = some (some p) → Dict.get? (numbers x) "today_energy" = some (some t) →
      ∃ s, smartGetStatus peer numbers (.obj kvs) sent = (.ok s, sent ++ [.obj [("get_energy_usage", .null)]]) ∧
        getItem s "power" = .ok (some (p / 1000)) ∧ getItem s "total" = .ok (some (t / 1000))) ∧
    smartPeriodic sent = (.error .kasa, sent) := by
  refine ⟨?_, ?_, rfl⟩
  · intro hd hp hx
    have hc : smartCall peer "get_emeter_data" sent = (.ok (.obj answer), sent ++ [.obj [("get_emeter_data", .null)]]) := by
      unfold smartCall
      rw [hp]
    unfold smartGetStatus
    rw [PyM.bind_apply, Ops.contains, hd, lift_ok]
    simp only [if_true]
    rw [PyM.bind_apply, hc]
    simp only [PyM.bind_apply, Ops.item, hx, lift_ok]
    rfl
  · intro hd hp hx p t h1 h2
    refine ⟨[("power_mw", some p), ("total", some (t / 1000))], ?_, ?_, ?_⟩
    · have hc : smartCall peer "get_energy_usage" sent = (.ok (.obj answer), sent ++ [.obj [("get_energy_usage", .null)]]) := by
        unfold smartCall
        rw [hp]
      unfold smartGetStatus
      rw [PyM.bind_apply, Ops.contains, hd, lift_ok]
      simp only [Bool.false_eq_true, if_false]
      rw [PyM.bind_apply, hc]
      simp only [PyM.bind_apply, Ops.item, hx, lift_ok, statusFromEnergy, h1, h2]
      rfl
    · show getItem _ (Quantity.base .power) = _
      rw [get_base _ .power (by simp [Dict.get?_cons, Quantity.base])]
      show Except.ok (downscale "power" _) = _
      rw [downscale_only "power" "power_mw" p _ (by decide +kernel) (by rw [Dict.get?_cons, if_pos rfl]) (by
          intro kv hkv hs
          simp only [List.mem_cons, List.not_mem_nil, or_false] at hkv
          rcases hkv with rfl | rfl
          · rfl
          · exact absurd hs (by simp only; decide +kernel))]
    · exact C27_as_reported _ _ _ (by rw [Dict.get?_cons, if_neg (show "power_mw" ≠ "total" by decide), Dict.get?_cons, if_pos rfl])

end

/-! ## What is supported -/

/-- **C101, several at once.** A set of features is supported when each of its features is. -/
theorem C101_supports_each (s f : Flags) : supports s f = true ↔
    (f.voltageCurrent = true → s.voltageCurrent = true) ∧ (f.consumptionTotal = true → s.consumptionTotal = true) ∧
    (f.periodicStats = true → s.periodicStats = true) := by
  rcases s with ⟨a, b, c⟩
  rcases f with ⟨x, y, z⟩
  cases a <;> cases b <;> cases c <;> cases x <;> cases y <;> cases z <;> decide

theorem iotFlags_last (us : List Json) (d : Json) : ∀ s, iotFlags (us ++ [d]) s = (iotHook d).2 := by
  induction us with
  | nil => intro s; rfl
  | cons u us ih => intro s; exact ih _

theorem iotHook_obj (kvs r : List (String × Json)) (h : Dict.get? kvs "get_realtime" = some (.obj r)) :
    iotHook (.obj kvs) = (.ok (), ⟨Dict.has r "voltage_mv" || Dict.has r "voltage", Dict.has r "total_wh" || Dict.has r "total", true⟩) := by
  unfold iotHook
  simp only [Ops.item, h, Ops.contains, bind, Except.bind, pure, Except.pure]

/-- **C101, legacy devices.** After any updates of which the last one brought readings, `supports` says of voltage and of the total whether these
readings have them, in either unit; and that there are statistics by period.  It does not matter what was reported before. -/
theorem C101_supports_legacy (us : List Json) (s : Flags) (kvs r : List (String × Json)) (h : Dict.get? kvs "get_realtime" = some (.obj r)) :
    (supports (iotFlags (us ++ [.obj kvs]) s) ⟨true, false, false⟩ = true ↔ Dict.has r "voltage_mv" = true ∨ Dict.has r "voltage" = true) ∧
    (supports (iotFlags (us ++ [.obj kvs]) s) ⟨false, true, false⟩ = true ↔ Dict.has r "total_wh" = true ∨ Dict.has r "total" = true) ∧
    supports (iotFlags (us ++ [.obj kvs]) s) ⟨false, false, true⟩ = true := by
  rw [iotFlags_last, iotHook_obj kvs r h]
  simp [supports]

theorem downscale_some (item : String) : ∀ s : Readings, (∃ i x, (i, some x) ∈ s ∧ startsWith i item = true) → ∃ v, downscale item s = some v
  | [], ⟨_, _, h, _⟩ => by cases h
  | (j, w) :: rest, ⟨i, x, h, hs⟩ => by
    unfold downscale
    cases hw : (if startsWith j item = true then w else none) with
    | some y => exact ⟨y / 1000, rfl⟩
    | none =>
      simp only
      rcases List.mem_cons.1 h with h | h
      · cases h
        rw [if_pos hs] at hw
        cases hw
      · exact downscale_some item rest ⟨i, x, h, hs⟩

/-- **C101, what is supported is shown.** A legacy device that is said to report voltage or the total shows a number for it, if what it reports
are numbers; one that is not shows none (if no other name begins like it). -/
theorem C101_supports_shown (us : List Json) (s : Flags) (kvs r : List (String × Json)) (h : Dict.get? kvs "get_realtime" = some (.obj r))
    (n : Readings) (hk : ∀ k, Dict.has n k = Dict.has r k) (hn : ∀ k, Dict.get? n k ≠ some none) :
    (supports (iotFlags (us ++ [.obj kvs]) s) ⟨true, false, false⟩ = true → ∃ v, getItem n "voltage" = .ok (some v)) ∧
    (supports (iotFlags (us ++ [.obj kvs]) s) ⟨false, true, false⟩ = true → ∃ v, getItem n "total" = .ok (some v)) ∧
    (supports (iotFlags (us ++ [.obj kvs]) s) ⟨true, false, false⟩ = false → NoLookalike n .voltage → getItem n "voltage" = .ok none) ∧
    (supports (iotFlags (us ++ [.obj kvs]) s) ⟨false, true, false⟩ = false → NoLookalike n .total → getItem n "total" = .ok none) := by
  obtain ⟨h1, h2, _⟩ := C101_supports_legacy us s kvs r h
  have shown : ∀ q : Quantity, Dict.has r q.milli = true ∨ Dict.has r q.base = true → ∃ v, getItem n q.base = .ok (some v) := by
    intro q hq
    by_cases hb : Dict.has n q.base = true
    · obtain ⟨v, hv⟩ := Option.isSome_iff_exists.1 hb
      cases v with
      | none => exact absurd hv (hn _)
      | some v => exact ⟨v, C27_as_reported _ _ _ hv⟩
    · rcases hq with hq | hq
      · rw [← hk] at hq
        obtain ⟨v, hv⟩ := Option.isSome_iff_exists.1 hq
        cases v with
        | none => exact absurd hv (hn _)
        | some v =>
          have hb' : Dict.get? n q.base = none := Option.not_isSome_iff_eq_none.1 hb
          obtain ⟨w, hw⟩ := downscale_some q.base n ⟨q.milli, v, Dict.mem_of_get? hv, milli_starts q⟩
          exact ⟨w, by rw [get_base n q hb', hw]⟩
      · rw [← hk] at hq
        exact absurd hq hb
  have hidden : ∀ q : Quantity, ¬ (Dict.has r q.milli = true ∨ Dict.has r q.base = true) → NoLookalike n q → getItem n q.base = .ok none := by
    intro q hq hl
    rw [← hk, ← hk] at hq
    exact (C27_absent_partial n q (Option.not_isSome_iff_eq_none.1 fun h => hq (.inr h)) (Option.not_isSome_iff_eq_none.1 fun h => hq (.inl h)) hl).1
  exact ⟨fun hs => shown .voltage (h1.1 hs), fun hs => shown .total (h2.1 hs),
    fun hs => hidden .voltage (fun hq => by rw [h1.2 hq] at hs; cases hs), fun hs => hidden .total (fun hq => by rw [h2.2 hq] at hs; cases hs)⟩

/-- **C101, false.** A legacy device whose meter answers with an error makes the update raise `KeyError`, which is no `KasaException`. -/
theorem C101_supports_error (kvs : List (String × Json)) (h : Dict.get? kvs "get_realtime" = none) :
    (iotHook (.obj kvs)).1 = .error (.other "KeyError") := by
  unfold iotHook
  simp only [Ops.item, h]

theorem smartFlags_voltage : ∀ (us : List (Option (Option Readings))) (s : Flags), (smartFlags us s).voltageCurrent =
    (s.voltageCurrent || us.any fun u => match u with | some (some e) => Dict.has e "voltage_mv" | _ => false)
  | [], s => by simp [smartFlags]
  | u :: us, s => by
    rw [smartFlags, smartFlags_voltage us]
    rcases u with _ | _ | e
    · simp [smartHook]
    · simp [smartHook]
    · cases h : Dict.has e "voltage_mv" <;> simp [smartHook, h]

theorem smartFlags_rest : ∀ (us : List (Option (Option Readings))) (s : Flags),
    (smartFlags us s).consumptionTotal = s.consumptionTotal ∧ (smartFlags us s).periodicStats = s.periodicStats
  | [], s => ⟨rfl, rfl⟩
  | u :: us, s => by
    rw [smartFlags, (smartFlags_rest us _).1, (smartFlags_rest us _).2]
    rcases u with _ | _ | e
    · exact ⟨rfl, rfl⟩
    · exact ⟨rfl, rfl⟩
    · cases h : Dict.has e "voltage_mv" <;> simp [smartHook, h]

/-- **C101, newer devices, in part.** A newer device is said to report voltage and current exactly if some update so far brought a voltage; it is
never said to have a total or statistics by period.  Missing: it may have stopped (`C101_supports_smart_counterexample`). -/
theorem C101_supports_smart_partial (us : List (Option (Option Readings))) :
    (supports (smartFlags us .none) ⟨true, false, false⟩ = true ↔ ∃ e, some (some e) ∈ us ∧ Dict.has e "voltage_mv" = true) ∧
    supports (smartFlags us .none) ⟨false, true, false⟩ = false ∧ supports (smartFlags us .none) ⟨false, false, true⟩ = false := by
  have h := smartFlags_voltage us .none
  have hr := smartFlags_rest us .none
  refine ⟨?_, ?_, ?_⟩
  · simp only [supports, Bool.not_true, Bool.false_or, Bool.not_false, Bool.true_or, Bool.and_true, h, show Flags.none.voltageCurrent = false from rfl, List.any_eq_true]
    constructor
    · rintro ⟨u, hu, he⟩
      rcases u with _ | _ | e
      · cases he
      · cases he
      · exact ⟨e, hu, he⟩
    · rintro ⟨e, hu, he⟩
      exact ⟨_, hu, he⟩
  · simp [supports, hr.1, show Flags.none.consumptionTotal = false from rfl]
  · simp [supports, hr.2, show Flags.none.periodicStats = false from rfl]

/-- **C101, false.** A newer device which no longer reports the voltage is still said to, although it shows none. -/
theorem C101_supports_smart_counterexample (e u p : Readings) (he : Dict.has e "voltage_mv" = true) :
    supports (smartFlags [some (some e), some (some [])] .none) ⟨true, false, false⟩ = true ∧
    smartReading (.v2 (some u) p []) "voltage_mv" = none := by
  refine ⟨?_, rfl⟩
  rw [(C101_supports_smart_partial _).1]
  exact ⟨e, by simp, he⟩

/-- **C101, false of strips.** A strip is said to report everything, whatever its sockets report. -/
theorem C101_supports_strip (f : Flags) : supports .strip f = true := by
  rw [C101_supports_each]
  exact ⟨fun _ => rfl, fun _ => rfl, fun _ => rfl⟩

/-! ## Examples -/

/-- A meter that reports 5 Wh for the second day of each month, accepts to erase, and reads 120 V. -/
def samplePeer : Peer := fun _ _ =>
  .ok (.obj [("emeter", .obj [("get_daystat", .obj [("day_list", .arr [])]), ("get_monthstat", .obj [("month_list", .arr [])]),
    ("erase_emeter_stat", .obj [("err_code", .num 0)]), ("get_realtime", .obj [("voltage_mv", .num 120000)])])])

/-- Reads the sample. -/
def sampleRead : Reader := fun _ => [[("day", 2), ("month", 3), ("energy_wh", 5)]]

theorem sample_proper : Proper (.obj [("emeter", .obj [("get_daystat", .obj [("day_list", .arr [])]), ("get_monthstat", .obj [("month_list", .arr [])]),
    ("erase_emeter_stat", .obj [("err_code", .num 0)]), ("get_realtime", .obj [("voltage_mv", .num 120000)])])]) := by
  refine .obj _ (by unfold Dict.WF; decide) ?_
  simp only [List.mem_singleton, forall_eq]
  refine .obj _ (by unfold Dict.WF; decide) ?_
  simp only [List.mem_cons, List.not_mem_nil, or_false, forall_eq_or_imp, forall_eq]
  refine ⟨.obj _ (by unfold Dict.WF; decide) ?_, .obj _ (by unfold Dict.WF; decide) ?_, .obj _ (by unfold Dict.WF; decide) ?_, .obj _ (by unfold Dict.WF; decide) ?_⟩ <;>
    simp only [List.mem_singleton, forall_eq]
  · exact .arr _ (by simp)
  · exact .arr _ (by simp)
  · exact .num _
  · exact .num _

theorem sample_days (y m : Int) (r : Json) (sent : List Json) :
    Answered "emeter" (.days y m) (samplePeer sent r) [("day_list", .arr [])] :=
  ⟨_, rfl, sample_proper, .mk _ _ _ _ rfl rfl (.inl rfl) (.inl rfl) (by
    intro k
    by_cases hk : k = "err_code"
    · rw [if_pos hk, hk]; rfl
    · rw [if_neg hk])⟩

theorem sample_erase (r : Json) (sent : List Json) : Answered "emeter" .eraseEnergy (samplePeer sent r) [] :=
  ⟨_, rfl, sample_proper, .mk _ _ _ _ rfl rfl (.inl rfl) (.inr (.inl rfl)) (by
    intro k
    by_cases hk : k = "err_code"
    · rw [if_pos hk]; rfl
    · rw [if_neg hk, Dict.get?_cons, if_neg (Ne.symm hk)])⟩

theorem sample_sound (l : Json) : Sound "day" (sampleRead l) := by
  constructor
  · intro e he
    simp only [sampleRead, List.mem_singleton] at he
    subst he
    exact ⟨2, rfl⟩
  · left
    intro e he
    simp only [sampleRead, List.mem_singleton] at he
    subst he
    exact ⟨5, rfl⟩

example := (C101_daily samplePeer sampleRead ⟨2024, 3⟩ "emeter" (by decide) none none (some 2) true []).1 _ _ (sample_days _ _ _ _) rfl (sample_sound _)
example := C101_strip_daily samplePeer sampleRead ⟨2024, 3⟩ "emeter" (by decide) ["A", "B"] none none false [] (fun _ => .arr [])
  (fun _ _ _ _ => ⟨_, sample_days _ _ _ _, rfl, sample_sound _⟩)
example := (C101_strip_erase samplePeer "emeter" (by decide) ["A", "B", "C"] []).1 (fun _ _ _ _ => ⟨_, sample_erase _ _⟩)
example := (C101_refused (fun _ _ => .error .timeout) sampleRead ⟨2024, 3⟩ "emeter" (by decide) none none none true [] .timeout rfl).1 rfl
example := (C101_strip_erase (fun sent r => if sent = [] then samplePeer sent r else .error .connection) "emeter" (by decide) ["A", "B", "C"] []).2
  ["A"] "B" ["C"] .connection rfl rfl
  (by
    intro pre id post h
    match pre, h with
    | [], h => exact ⟨_, sample_erase .null []⟩
    | [_], h => cases h
    | _ :: _ :: _, h => cases h) rfl
example := (C101_smart_status (fun _ _ => .ok (.obj [("get_energy_usage", .null)])) (fun _ => [("current_power", some 5000), ("today_energy", some 20)])
  [] [] [("get_energy_usage", .null)] .null).2.1 rfl rfl rfl 5000 20 rfl rfl
example := C101_supports_legacy [.null] .none [("get_realtime", .obj [("voltage", .num 120)])] [("voltage", .num 120)] rfl

end Kasa.Meter
