import Verif.Lemmas.IotReadings
/-!
# C93: what a legacy device object shows before and after its first update
-/

namespace Kasa.IotReadings
open Ops

/-! ## Before anything is heard -/

/-- **C93, nothing heard.** Whatever was discovered in the new style and however many updates got no answer: a reading raises
`KasaException`, unless discovery told something of its name last. -/
theorem C93_unheard (budget : Nat) (hs : List Event) (hu : ∀ h ∈ hs, Unheard h) (lower : String → String) (isTime : Iot.Mod → Bool)
    (read : Iot.Mod → Except Exc Unit) (r : Reading) (hr : ∀ info, lastTold hs = some info → Dict.get? info r.name = none ∧ r ≠ .model) :
    r.outcome lower isTime read (after (new budget) hs) = .error .kasa := by
  have ho := after_told hs _ _ hu (new_told budget)
  rw [Option.or_none] at ho
  have hg : ∀ {α : Type} (f : Except Exc α), guarded (after (new budget) hs) r.name f = .error .kasa := by
    intro α f
    refine guarded_untold _ _ _ _ ho (fun info hi => (hr info hi).1) fun h1 h2 => ?_
    obtain ⟨info, hi⟩ := Option.isSome_iff_exists.mp h1
    have := (hr info hi).2
    cases r <;> first | exact this rfl | exact absurd h2 (by decide)
  cases r <;> simp only [Reading.outcome, sysInfo, modules, model, hwInfo, location, rssi, mac, deviceId, time, isOn, stripIsOn] <;>
    (simp only [Reading.name] at hg; rw [hg]) <;> rfl

/-- **C93, told by discovery.** What discovery told last in the new style is shown, however many updates got no answer: the model without its
region, and the hardware address, which is also the id; the name is not known. -/
theorem C93_told (budget : Nat) (hs : List Event) (hu : ∀ h ∈ hs, Unheard h) (info : Info) (hi : lastTold hs = some info)
    (lower : String → String) (m : List Char) (region : List Char) (hm : Dict.get? info "device_model" = some (.str (String.ofList (m ++ '(' :: region))))
    (hp : '(' ∉ m) (a : String) (ha : Dict.get? info "mac" = some (.str a))
    (hd : '-' ∈ a.toList ∨ ':' ∈ a.toList) :
    model lower (after (new budget) hs) = .ok (.str (String.ofList m)) ∧
    (∃ r, mac (after (new budget) hs) = .ok r ∧ WithColons a r ∧ (Dict.get? info "device_id" ≠ none → deviceId (after (new budget) hs) = .ok r)) ∧
    (Dict.get? info "alias" = none → alias (after (new budget) hs) = .ok .null) := by
  have ho := after_told hs _ _ hu (new_told budget)
  rw [Option.or_none, hi] at ho
  obtain ⟨s, hs1, hs2⟩ := ho.2.2
  rw [hm] at hs1
  obtain rfl : String.ofList (m ++ '(' :: region) = s := by simpa using hs1
  have hsplit : ∀ m : List Char, '(' ∉ m → (DeviceInfo.splitAt '(' (m ++ '(' :: region)).1 = m := by
    intro m hm
    induction m with
    | nil => rfl
    | cons x m ih =>
      rw [List.mem_cons, not_or] at hm
      rw [List.cons_append, DeviceInfo.splitAt, if_neg (fun h => hm.1 h.symm), ih hm.2]
  have hshort : shortModel (String.ofList (m ++ '(' :: region)) = .str (String.ofList m) := by
    unfold shortModel
    rw [String.toList_ofList, hsplit m hp]
  rw [hshort] at hs2
  obtain ⟨r, hr1, hr2⟩ := mac_colons (Dict.set info "model" (.str (String.ofList m))) a (by rw [Dict.get?_set_ne _ _ (by decide), ha]) hd
  have hmac : mac (after (new budget) hs) = .ok r := by
    unfold mac
    rw [guarded_told _ _ _ info ho (.inl (by rw [ha]; simp)), hs2]
    exact hr1
  refine ⟨?_, ⟨r, hmac, hr2, fun hd => ?_⟩, fun hal => ?_⟩
  · unfold model
    rw [guarded_told _ _ _ info ho (.inr rfl), ho.1, hs2]
    simp only [List.isEmpty_nil, if_true, item, Dict.get?_set_self]
  · unfold deviceId
    rw [guarded_told _ _ _ info ho (.inl hd), hmac]
  · unfold alias
    rw [hs2]
    split
    · simp only [getOpt]
      rw [Dict.get?_set_ne _ _ (by decide), hal]
      rfl
    · rfl

/-! ## After the device was heard -/

/-- **C93, found.** Whatever happened before: once discovery found the device in the old style, what the device reported is shown. -/
theorem C93_found (o : Obj) (hs : List Event) (info sys : Info) (h : OldStyle info sys) :
    ShowsInfo (after o (hs ++ [.found info])) sys := by
  unfold after
  rw [List.foldl_append]
  show ShowsInfo (found info (hs.foldl happen o)).2 sys
  rw [found_old info sys h]
  refine shows_info _ sys ?_ rfl h.1
  show info ≠ []
  intro hn
  rw [hn] at h
  exact absurd h.2 (by simp [IotSpec.known])

/-- The part of an update that reads the system information. -/
theorem last_info (env : Iot.Env) (s s' : Iot.W) (h : Iot.lastPart env s = (.ok (), s')) :
    SysInfo.extract (.obj s.dev.lastUpdate) = .ok s'.dev.sysInfo ∧ s'.dev.lastUpdate = s.dev.lastUpdate ∧ s'.sent = s.sent := by
  unfold Iot.lastPart at h
  rw [PyM.bind_ok (PyM.get_apply s)] at h
  obtain ⟨_, s1, h1, h2⟩ := PyM.bind_eq_ok h
  rw [PyM.bind_ok (PyM.get_apply s1), PyM.lift_apply] at h2
  obtain ⟨-, rfl⟩ := Prod.mk.inj h2
  unfold Iot.setSysInfo at h1
  obtain ⟨sys, s2, h3, h4⟩ := PyM.bind_eq_ok h1
  rw [PyM.lift_apply] at h3
  obtain ⟨hx3, hs2⟩ := Prod.mk.inj h3
  subst hs2
  rw [PyM.bind_ok (PyM.modify_apply _ _)] at h4
  obtain ⟨f, s4, h5, h6⟩ := PyM.bind_eq_ok h4
  rw [PyM.lift_apply] at h5 h6
  obtain ⟨-, rfl⟩ := Prod.mk.inj h5
  obtain ⟨-, rfl⟩ := Prod.mk.inj h6
  exact ⟨hx3, rfl, rfl⟩

/-- The information is the one under `system` and `get_sysinfo`, unless there is more below it. -/
theorem extract_known (last sys : Info) (h : IotSpec.known last "system" "get_sysinfo" = some (.obj sys)) (hn : Dict.get? sys "system" = none) :
    SysInfo.extract (.obj last) = .ok (.obj sys) := by
  unfold IotSpec.known at h
  cases hs : Dict.get? last "system" with
  | none => rw [hs] at h; cases h
  | some v =>
    rw [hs] at h
    cases v with
    | obj kvs =>
      simp only at h
      unfold SysInfo.extract
      simp only [getOr, hs, Option.getD_some, h, hn, Option.getD_none, len, bind, Except.bind, pure, Except.pure, List.length_nil,
        SysInfo.isDict, Bool.and_true, decide_eq_true_eq]
      rw [if_neg (by omega)]
    | _ => cases h

/-- **C93, updated.** When an update returns, the object shows what the device reported last in the answers to this update; here `before`
are the requests sent before the modules are asked. -/
theorem C93_updated (env : Iot.Env) (o o' : Obj) (h : update env o = (.ok (), o')) :
    ∃ (before requests : List Json) (answers : List Info), o'.sent = before ++ requests ∧
      (before = o.sent ∨ before = o.sent ++ [.obj Iot.sysInfoQuery]) ∧ answers.length = requests.length ∧
      (∀ i (hi : i < answers.length), env.answer (before ++ requests.take (i + 1)) = .ok (.obj answers[i])) ∧
      ((∀ a ∈ answers, IotSpec.Proper (.obj a)) → ∀ sys, IotSpec.latest answers "system" "get_sysinfo" = some (.obj sys) → sys ≠ [] →
        Dict.get? sys "system" = none → ShowsInfo o' sys) := by
  unfold update at h
  obtain ⟨h1, rfl⟩ := Prod.mk.inj h
  simp only
  revert h1
  cases hu : Iot.update env ⟨o.dev, o.sent⟩ with
  | mk r s' =>
    rintro rfl
    rw [Iot.update_eq] at hu
    obtain ⟨_, s1, e1, hu⟩ := PyM.bind_eq_ok hu
    obtain ⟨_, s2, e2, hu⟩ := PyM.bind_eq_ok hu
    obtain ⟨_, s3, e3, hu⟩ := PyM.bind_eq_ok hu
    obtain ⟨hx, hlast, hsent⟩ := last_info env s3 s' hu
    have hs1 : s1.sent = o.sent ∨ s1.sent = o.sent ++ [.obj Iot.sysInfoQuery] := by
      unfold Iot.initialUpdate at e1
      rw [PyM.bind_ok (PyM.get_apply _)] at e1
      split at e1
      · obtain ⟨r, s0, q1, q2⟩ := PyM.bind_eq_ok e1
        have hq : s0.sent = o.sent ++ [.obj Iot.sysInfoQuery] := by
          unfold Iot.query at q1
          simp only [PyM.bind_apply, PyM.modify_apply, PyM.get_apply, PyM.lift_apply] at q1
          rw [← (Prod.mk.inj q1).2]
        refine .inr ?_
        unfold Iot.firstAnswer at q2
        cases r with
        | obj kvs =>
          simp only at q2
          rw [PyM.bind_ok (PyM.modify_apply _ _)] at q2
          have := (Iot.setSysInfo_sent kvs { s0 with dev := { s0.dev with lastUpdate := kvs } }).1
          rw [q2] at this
          exact this.trans hq
        | _ => cases q2
      · exact .inl (by rw [← (Prod.mk.inj e1).2])
    have hs2 : s2.sent = s1.sent := by
      unfold Iot.initModules at e2
      rw [PyM.modify_apply] at e2
      rw [← (Prod.mk.inj e2).2]
      split <;> rfl
    obtain ⟨ms, requests, answers, -, -, a1, a2, a3, a4, -⟩ := Iot.C22_answers env _ s2 s3 e3
    refine ⟨s2.sent, _, answers, by rw [hsent, a1], by rw [hs2]; exact hs1, a2, a3, fun hp sys hl hne hn => ?_⟩
    have hk : IotSpec.known s3.dev.lastUpdate "system" "get_sysinfo" = some (.obj sys) := by
      rw [a4 hp, hl]
      rfl
    have he := extract_known _ _ hk hn
    rw [hx] at he
    have hinfo : s'.dev.sysInfo = .obj sys := by simpa using he
    refine shows_info _ sys ?_ hinfo hne
    show s'.dev.lastUpdate ≠ []
    rw [hlast]
    intro hz
    rw [hz] at hk
    simp [IotSpec.known] at hk

/-- **C93, modules.** Once an update has returned (and something was reported), the modules are there, and stay, whatever is discovered or fails
afterwards. -/
theorem C93_modules_stay (env : Iot.Env) (o o' : Obj) (h : update env o = (.ok (), o')) (hl : o'.dev.lastUpdate ≠ []) :
    ∃ ms, ∀ hs, modules (after o' hs) = .ok (some ms) := by
  unfold update at h
  obtain ⟨h1, rfl⟩ := Prod.mk.inj h
  obtain ⟨ms, hms⟩ := Option.isSome_iff_exists.mp ((update_keeps env ⟨o.dev, o.sent⟩).2 h1)
  refine ⟨ms, fun hs => ?_⟩
  obtain ⟨h2, h3⟩ := after_keeps hs _ ms hms hl
  unfold modules
  rw [guarded_updated _ _ _ h3, h2]

/-- **C93, energy meter.** The device counts as one with an energy meter if and only if `ENE` is one of the parts of the last feature text that
is not empty. -/
theorem C93_emeter (reports : List Info) : hasEmeter reports = true ↔ ∃ s, lastFeatures reports = some s ∧ Part "ENE" s := by
  unfold hasEmeter
  rw [legacy_last]
  cases lastFeatures reports with
  | none => simp
  | some s =>
    simp only [List.contains_iff_mem, mem_parse]
    constructor
    · intro h; exact ⟨s, rfl, h⟩
    · rintro ⟨s', h, hp⟩; cases h; exact hp

/-! ## What is missing: readings that neither show what was reported nor raise `KasaException` -/

/-- C93 fails: a device that was found in the old style, but not updated, has no modules, not even an empty set of them, and asking for
its time raises `TypeError`. -/
theorem C93_found_no_modules (budget : Nat) (info sys : Info) (h : OldStyle info sys) (isTime : Iot.Mod → Bool) (read : Iot.Mod → Except Exc Unit) :
    let o := after (new budget) [.found info]
    modules o = .ok none ∧ Reading.outcome (fun s => s) isTime read o .time = .error (.other "TypeError") := by
  have hf := found_old info sys h (new budget)
  have hl : (found info (new budget)).2.dev.lastUpdate ≠ [] := by
    rw [hf]
    intro hn
    have hn : info = [] := hn
    rw [hn] at h
    exact absurd h.2 (by simp [IotSpec.known])
  show modules (found info (new budget)).2 = _ ∧ time isTime read "time" (found info (new budget)).2 = _
  have hm : modules (found info (new budget)).2 = .ok none := by
    unfold modules
    rw [guarded_updated _ _ _ hl, hf]
    rfl
  refine ⟨hm, ?_⟩
  unfold time
  rw [guarded_updated _ _ _ hl, hm]
  rfl

/-- C93 fails for strips: found in the old style, but not updated, a strip is said to be off and switching it does nothing at all and returns,
whatever its sockets are. -/
theorem C93_strip_not_updated (budget : Nat) (info sys : Info) (h : OldStyle info sys) (env : Strip.Env) (on : Bool) :
    let o := after (new budget) [.found info]
    stripIsOn o = .ok false ∧ stripSwitch env on o = (.ok (), []) := by
  have hf := found_old info sys h (new budget)
  have hl : (found info (new budget)).2.dev.lastUpdate ≠ [] := by
    rw [hf]
    intro hn
    have hn : info = [] := hn
    rw [hn] at h
    exact absurd h.2 (by simp [IotSpec.known])
  have hp : (found info (new budget)).2.plugs = [] := (found_keeps info (new budget)).2.2.1
  show stripIsOn (found info (new budget)).2 = _ ∧ stripSwitch env on (found info (new budget)).2 = _
  constructor
  · unfold stripIsOn
    rw [guarded_updated _ _ _ hl, hp]
  · unfold stripSwitch
    rw [hp, (found_keeps info (new budget)).2.2.2]
    rfl

/-- **C93, what readings raise.** A device that nothing was heard from, or that was found in the old style, never raises anything but
`KasaException` for its modules, its information as a whole and its hardware information.  Missing: the time and the strips, see the two
theorems above. -/
theorem C93_raises_partial (budget : Nat) (hs : List Event) (hh : (∀ h ∈ hs, Unheard h) ∨ ∃ pre info sys, hs = pre ++ [.found info] ∧ OldStyle info sys)
    (r : Reading) (hr : r = .sysInfo ∨ r = .modules ∨ r = .hwInfo) (lower : String → String) (isTime : Iot.Mod → Bool)
    (read : Iot.Mod → Except Exc Unit) (e : Exc) (he : r.outcome lower isTime read (after (new budget) hs) = .error e) : e = .kasa := by
  rcases hh with hu | ⟨pre, info, sys, rfl, ho⟩
  · have ht := after_told hs _ _ hu (new_told budget)
    rw [Option.or_none] at ht
    have hg : ∀ {α : Type} (name : String) (f : Except Exc α), (∃ v, f = .ok v) → ∀ e, guarded (after (new budget) hs) name f = .error e → e = .kasa := by
      intro α name f ⟨v, hv⟩ e he
      by_cases hc : (∀ info, lastTold hs = some info → Dict.get? info name = none) ∧ ((lastTold hs).isSome → name ≠ "model")
      · rw [guarded_untold _ _ _ _ ht hc.1 hc.2] at he
        cases he
        rfl
      · have : ∃ info, lastTold hs = some info ∧ (Dict.get? info name ≠ none ∨ name = "model") := by
          cases hl : lastTold hs with
          | none => exact absurd (by rw [hl]; exact ⟨fun _ h => (nomatch h), fun h => (nomatch h)⟩) hc
          | some info =>
            refine ⟨info, rfl, ?_⟩
            by_cases h1 : Dict.get? info name = none
            · by_cases h2 : name = "model"
              · exact .inr h2
              · exact absurd (by rw [hl]; exact ⟨fun i hi => by (cases hi; exact h1), fun _ => h2⟩) hc
            · exact .inl h1
        obtain ⟨info, hi, hn⟩ := this
        rw [hi] at ht
        rw [guarded_told _ _ _ info ht hn, hv] at he
        cases he
    have hk : lastTold hs = none ∨ ∃ kvs, (after (new budget) hs).dev.sysInfo = .obj kvs := by
      cases hl : lastTold hs with
      | none => exact .inl rfl
      | some info => rw [hl] at ht; obtain ⟨s, -, hs⟩ := ht.2.2; exact .inr ⟨_, hs⟩
    have hmap : ∀ {α : Type} (x : Except Exc α), (x.map fun _ => ()) = .error e → x = .error e := by
      intro α x hx
      cases x with
      | error e' => simpa [Except.map] using hx
      | ok v => cases hx
    rcases hr with rfl | rfl | rfl
    · exact hg _ _ ⟨_, rfl⟩ e (hmap _ he)
    · exact hg _ _ ⟨_, rfl⟩ e (hmap _ he)
    · rcases hk with hk | ⟨kvs, hk⟩
      · have hx := hmap _ he
        unfold hwInfo at hx
        rw [guarded_untold (after (new budget) hs) "hw_info" _ _ ht (fun i hi => by (rw [hk] at hi; cases hi))
          (fun h => by (rw [hk] at h; cases h))] at hx
        cases hx
        rfl
      · have hx := hmap _ he
        unfold hwInfo at hx
        rw [hk] at hx
        exact hg _ _ ⟨_, rfl⟩ e hx
  · have hshow := C93_found (new budget) pre info sys ho
    have hmod : ∃ x, modules (after (new budget) (pre ++ [.found info])) = .ok x := by
      have hf : after (new budget) (pre ++ [.found info]) = (found info (after (new budget) pre)).2 := by
        unfold after; rw [List.foldl_append]; rfl
      rw [hf]
      refine ⟨_, guarded_updated _ _ _ ?_⟩
      rw [found_old info sys ho]
      intro hn
      have hn : info = [] := hn
      rw [hn] at ho
      exact absurd ho.2 (by simp [IotSpec.known])
    rcases hr with rfl | rfl | rfl
    · simp only [Reading.outcome, hshow.info, Except.map] at he
      cases he
    · obtain ⟨x, hx⟩ := hmod
      simp only [Reading.outcome, hx, Except.map] at he
      cases he
    · obtain ⟨hw, hx, -⟩ := hshow.hardware
      simp only [Reading.outcome, hx, Except.map] at he
      cases he

/-! ## Examples -/

/-- A device found in the new style. -/
def toldInfo : Info := [("device_model", .str "HS100(UK)"), ("mac", .str "AA-BB-CC-DD-EE-FF"), ("device_id", .str "x1"), ("ip", .str "10.0.0.2")]

def silent : Iot.Env := ⟨fun _ => .error .timeout, fun _ => [], fun _ => .ok ()⟩

example : ∀ h ∈ [Event.updated silent, .found toldInfo, .updated silent], Unheard h := by
  intro h hh
  simp only [List.mem_cons, List.not_mem_nil, or_false] at hh
  rcases hh with rfl | rfl | rfl
  · exact fun _ => ⟨_, rfl⟩
  · exact ⟨by decide, _, rfl⟩
  · exact fun _ => ⟨_, rfl⟩

example : (mac (after (new 1000) [.updated silent, .found toldInfo, .updated silent])) = .ok "AA:BB:CC:DD:EE:FF" := by decide +kernel

example : (isOn (after (new 1000) [.updated silent, .found toldInfo, .updated silent])) = .error .kasa := by decide +kernel

/-- A strip found in the old style, with one of its sockets on. -/
def stripSys : Info := [("alias", .str "desk"), ("latitude_i", .num 523000), ("longitude_i", .num (-45000)), ("rssi", .num (-50)), ("sw_ver", .str "1.0"),
  ("feature", .str "TIM:ENE"), ("children", .arr [.obj [("id", .str "00"), ("state", .num 1)], .obj [("id", .str "01"), ("state", .num 0)]])]

def stripInfo : Info := [("system", .obj [("get_sysinfo", .obj stripSys)])]

theorem stripInfo_old : OldStyle stripInfo stripSys := ⟨by decide, rfl⟩

example : Place stripSys (.ratio (523000 / 10000), .ratio (((-45000 : Int) : Rat) / 10000)) := .scaled (.inl rfl) rfl rfl

/-- It is found, says it is off although a socket is on, and cannot be switched off. -/
example : stripIsOn (after (new 1000) [.found stripInfo]) = .ok false ∧ Strip.isOn (.obj stripSys) [⟨.str "00", none⟩, ⟨.str "01", none⟩] = .ok true := by
  refine ⟨(C93_strip_not_updated 1000 stripInfo stripSys stripInfo_old ⟨fun _ => .ok .null, fun _ => .null⟩ false).1, by decide +kernel⟩

/-- An update that returns, for a device that was found in the new style before. -/
def answering : Iot.Env := ⟨fun _ => .ok (.obj stripInfo), fun _ => [], fun _ => .ok ()⟩

example : (update answering (after (new 1000) [.found toldInfo])).1 = .ok () := by decide +kernel

example : alias (after (new 1000) [.found toldInfo, .updated answering]) = .ok (.str "desk") := by decide +kernel

example : modules (after (new 1000) [.found toldInfo, .updated answering, .updated silent, .found toldInfo]) = .ok (some []) := by decide +kernel

/-- A feature text that stays when a later report has none. -/
example : hasEmeter [[("feature", .str "TIM:ENE")], [("alias", .str "x")]] = true ∧ hasEmeter [[("feature", .str "TIM:ENERGY")]] = false := by
  decide +kernel

end Kasa.IotReadings
