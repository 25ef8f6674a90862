import Verif.Model.Strip
import Verif.Spec.Strip
import Verif.Props.OnSince
/-!
# C25: power strips
-/

namespace Kasa.Strip

open StripSpec Ops

/-- The sockets of the strip object are those reported. -/
def Matches (plugs : List Plug) (sockets : List Socket) : Prop := plugs.map (·.id) = sockets.map (fun s => Json.str s.id)

theorem entries_of {sys : Json} {sockets : List Socket} (h : Reports sys sockets) :
    entries sys = .ok (sockets.map Socket.json) := by
  obtain ⟨h, -⟩ := h
  cases sys with
  | obj kvs =>
    unfold entries item
    change Dict.get? kvs "children" = _ at h
    simp only [h]
    rfl
  | null | bool _ | num _ | str _ | arr _ => cases h

theorem item_id (s : Socket) : item s.json "id" = .ok (.str s.id) := by
  unfold item Socket.json
  simp [Dict.get?_cons]

theorem item_state (s : Socket) : item s.json "state" = .ok (.num (if s.on then 1 else 0)) := by
  unfold item Socket.json
  simp [Dict.get?_cons]

theorem item_onTime (s : Socket) : item s.json "on_time" = .ok (.num s.onTime) := by
  unfold item Socket.json
  simp [Dict.get?_cons]

theorem findInfo_of (sockets : List Socket) (hn : (sockets.map (·.id)).Nodup) (s : Socket) (hs : s ∈ sockets) :
    findInfo (.str s.id) (sockets.map Socket.json) = .ok s.json := by
  induction sockets with
  | nil => cases hs
  | cons a rest ih =>
    rw [List.map_cons, List.nodup_cons] at hn
    unfold findInfo
    rw [List.map_cons]
    simp only [item_id, bind, Except.bind]
    rcases List.mem_cons.mp hs with rfl | hs
    · rw [if_pos rfl]; rfl
    · rw [if_neg]
      · exact ih hn.2 hs
      · intro h
        exact hn.1 (by rw [Json.str.inj h]; exact List.mem_map_of_mem hs)

theorem childInfo_of {sys : Json} {sockets : List Socket} (h : Reports sys sockets) (s : Socket) (hs : s ∈ sockets) :
    childInfo sys (.str s.id) = .ok s.json := by
  unfold childInfo
  rw [entries_of h]
  exact findInfo_of sockets h.2 s hs

theorem plugIsOn_of {sys : Json} {sockets : List Socket} (h : Reports sys sockets) (s : Socket) (hs : s ∈ sockets) :
    plugIsOn sys (.str s.id) = .ok s.on := by
  unfold plugIsOn
  rw [childInfo_of h s hs]
  simp only [bind, Except.bind, item_state]
  cases s.on <;> rfl

/-- C25: the sockets made at the first update are those reported, in that order. -/
theorem C25_children (sys : Json) (sockets : List Socket) (h : Reports sys sockets) :
    ∃ plugs, initChildren sys = .ok plugs ∧ Matches plugs sockets := by
  unfold initChildren
  rw [entries_of h]
  have key : ∀ (rest : List Socket) (done : List Plug) (seen : List Socket), Matches done seen →
      ((seen ++ rest).map (·.id)).Nodup →
      ∃ plugs, childrenFrom done (rest.map Socket.json) = .ok plugs ∧ Matches plugs (seen ++ rest) := by
    intro rest
    induction rest with
    | nil => intro done seen hm _; exact ⟨done, rfl, by simpa using hm⟩
    | cons s rest ih =>
      intro done seen hm hn
      unfold childrenFrom
      rw [List.map_cons]
      simp only [item_id, bind, Except.bind]
      have hnot : done.any (fun p => decide (p.id = .str s.id)) = false := by
        rw [List.any_eq_false]
        intro p hp hid
        rw [decide_eq_true_eq] at hid
        have : p.id ∈ seen.map (fun s => Json.str s.id) := by rw [← hm]; exact List.mem_map_of_mem hp
        rw [hid, List.mem_map] at this
        obtain ⟨t, ht, he⟩ := this
        rw [List.map_append, List.nodup_append] at hn
        exact hn.2.2 t.id (List.mem_map_of_mem ht) s.id (List.mem_map_of_mem List.mem_cons_self) (Json.str.inj he)
      rw [hnot]
      have := ih (done ++ [⟨.str s.id, none⟩]) (seen ++ [s]) (by
        unfold Matches at *
        rw [List.map_append, List.map_append, hm]
        rfl) (by simpa using hn)
      simpa using this
  exact key sockets [] [] rfl (by simpa using h.2)

theorem isOn_of {sys : Json} {sockets : List Socket} (h : Reports sys sockets) : ∀ (plugs : List Plug) (ss : List Socket),
    Matches plugs ss → (∀ s ∈ ss, s ∈ sockets) → isOn sys plugs = .ok (ss.any (·.on)) := by
  intro plugs
  induction plugs with
  | nil =>
    intro ss hm _
    cases ss with
    | nil => rfl
    | cons a l => cases hm
  | cons p plugs ih =>
    intro ss hm hs
    cases ss with
    | nil => cases hm
    | cons s ss =>
      unfold Matches at hm
      simp only [List.map_cons, List.cons.injEq] at hm
      unfold isOn
      rw [hm.1, plugIsOn_of h s (hs s List.mem_cons_self)]
      simp only [bind, Except.bind]
      rw [List.any_cons]
      cases hon : s.on with
      | true => rfl
      | false =>
        simp only [Bool.false_eq_true, if_false, Bool.false_or]
        exact ih ss hm.2 fun s h => hs s (List.mem_cons_of_mem _ h)

/-- C25: the strip is on exactly when a socket is on. -/
theorem C25_is_on (sys : Json) (sockets : List Socket) (plugs : List Plug) (h : Reports sys sockets)
    (hm : Matches plugs sockets) : isOn sys plugs = .ok true ↔ ∃ s ∈ sockets, s.on = true := by
  rw [isOn_of h plugs sockets hm (fun _ h => h)]
  simp

/-- C25: otherwise it is off: reading the state never raises. -/
theorem C25_is_off (sys : Json) (sockets : List Socket) (plugs : List Plug) (h : Reports sys sockets)
    (hm : Matches plugs sockets) : isOn sys plugs = .ok false ↔ ∀ s ∈ sockets, s.on = false := by
  rw [isOn_of h plugs sockets hm (fun _ h => h)]
  simp

theorem switch_sent (env : Env) (id : String) (on : Bool) (sent : List Json) :
    ∃ req, (switch env (.str id) (if on then 1 else 0) sent).2 = sent ++ [req] ∧ Switches req id on := by
  refine ⟨Iot.createRequest "system" "set_relay_state" (some (.obj [("state", .num (if on then 1 else 0))]))
    (some (.arr [.str id])), ?_, ?_⟩
  · unfold switch
    simp only [PyM.bind_apply, PyM.modify_apply, PyM.get_apply, PyM.lift_apply]
    cases (Iot.queryHelper _ _ _ _ _) <;> rfl
  · constructor <;> rfl

theorem forEach_cons {S ι : Type} (body : ι → PyM S Unit) (x : ι) (xs : List ι) :
    PyM.forEach body (x :: xs) = (body x >>= fun _ => PyM.forEach body xs) := rfl

theorem switchAll_of (env : Env) (on : Bool) (sockets : List Socket) (h : ∀ sent, Reports (env.sys sent) sockets) :
    ∀ (plugs : List Plug) (ss : List Socket) (sent : List Json), Matches plugs ss → (∀ s ∈ ss, s ∈ sockets) →
    ∃ reqs n, (switchAll env on plugs sent).2 = sent ++ reqs ∧
      SwitchesAll on reqs (((ss.filter (fun s => s.on != on)).map (·.id)).take n) ∧
      ((switchAll env on plugs sent).1 = .ok () → ((ss.filter (fun s => s.on != on)).map (·.id)).length ≤ n) := by
  intro plugs
  induction plugs with
  | nil =>
    intro ss sent hm _
    cases ss with
    | nil => exact ⟨[], 0, by simp [switchAll, PyM.forEach], trivial, fun _ => Nat.le_refl _⟩
    | cons a l => cases hm
  | cons p plugs ih =>
    intro ss sent hm hs
    cases ss with
    | nil => cases hm
    | cons s ss =>
      unfold Matches at hm
      simp only [List.map_cons, List.cons.injEq] at hm
      have hb := plugIsOn_of (h sent) s (hs s List.mem_cons_self)
      have hstep : switchPlug env on p sent = (if s.on = on then pure () else switch env p.id (if on then 1 else 0)) sent := by
        unfold switchPlug
        rw [PyM.bind_ok (PyM.get_apply sent), hm.1, hb, PyM.bind_ok (PyM.lift_ok_apply s.on sent)]
      unfold switchAll
      rw [forEach_cons]
      by_cases hon : s.on = on
      · rw [if_pos hon] at hstep
        rw [PyM.bind_ok (by rw [hstep]; rfl : switchPlug env on p sent = (.ok (), sent))]
        obtain ⟨reqs, n, h1, h2, h3⟩ := ih ss sent hm.2 fun s h => hs s (List.mem_cons_of_mem _ h)
        have hf : (s :: ss).filter (fun s => s.on != on) = ss.filter (fun s => s.on != on) := by
          rw [List.filter_cons_of_neg]; simp [hon]
        rw [hf]
        exact ⟨reqs, n, h1, h2, h3⟩
      · rw [if_neg hon] at hstep
        have hf : (s :: ss).filter (fun s => s.on != on) = s :: ss.filter (fun s => s.on != on) := by
          rw [List.filter_cons_of_pos]; simp [hon]
        rw [hf]
        obtain ⟨req, h4, h5⟩ := switch_sent env s.id on sent
        rw [hm.1] at hstep
        cases hr : switchPlug env on p sent with
        | mk r sent1 =>
          have hs1 : sent1 = sent ++ [req] := by rw [hstep] at hr; rw [hr] at h4; exact h4
          cases r with
          | error e =>
            rw [PyM.bind_error hr]
            exact ⟨[req], 1, hs1, ⟨h5, trivial⟩, fun h => by cases h⟩
          | ok u =>
            rw [PyM.bind_ok hr]
            obtain ⟨reqs, n, h1, h2, h3⟩ := ih ss sent1 hm.2 fun s h => hs s (List.mem_cons_of_mem _ h)
            refine ⟨req :: reqs, n + 1, ?_, ⟨h5, h2⟩, ?_⟩
            · unfold switchAll at h1
              rw [h1, hs1, List.append_assoc]
              rfl
            · intro h
              have := h3 h
              rw [List.map_cons, List.length_cons]
              omega

/-- C25: `turn_on` (`turn_off`) sends the command to exactly the sockets that are off (on), in order, each once; if a
command fails, it raises and to the first ones only. -/
theorem C25_commands (env : Env) (on : Bool) (sockets : List Socket) (plugs : List Plug) (sent : List Json)
    (h : ∀ sent, Reports (env.sys sent) sockets) (hm : Matches plugs sockets) :
    ∃ reqs n, (switchAll env on plugs sent).2 = sent ++ reqs ∧
      SwitchesAll on reqs (((sockets.filter (fun s => s.on != on)).map (·.id)).take n) ∧
      ((switchAll env on plugs sent).1 = .ok () →
        SwitchesAll on reqs ((sockets.filter (fun s => s.on != on)).map (·.id))) := by
  obtain ⟨reqs, n, h1, h2, h3⟩ := switchAll_of env on sockets h plugs sockets sent hm (fun _ h => h)
  refine ⟨reqs, n, h1, h2, fun ho => ?_⟩
  rwa [List.take_of_length_le (h3 ho)] at h2

theorem run_of (on : Bool) : ∀ (reqs : List Json) (ids : List String) (r : Relays), SwitchesAll on reqs ids →
    ∃ r', Run r reqs r' ∧ ∀ i, r' i = if i ∈ ids then on else r i := by
  intro reqs
  induction reqs with
  | nil =>
    intro ids r h
    cases ids with
    | nil => exact ⟨r, .nil r, fun i => by simp⟩
    | cons _ _ => cases h
  | cons req reqs ih =>
    intro ids r h
    cases ids with
    | nil => cases h
    | cons id ids =>
      obtain ⟨r', h1, h2⟩ := ih ids (fun i => if i = id then on else r i) h.2
      refine ⟨r', .cons r r' req reqs id on h.1 h1, fun i => ?_⟩
      rw [h2]
      by_cases hi : i = id
      · simp [hi]
      · simp [hi]

/-- C25: if the relays were as reported, then after a successful `turn_on` (`turn_off`) every socket is on (off), and no
other relay changed. -/
theorem C25_all_switched (env : Env) (on : Bool) (sockets : List Socket) (plugs : List Plug) (sent sent' : List Json)
    (h : ∀ sent, Reports (env.sys sent) sockets) (hm : Matches plugs sockets)
    (hr : switchAll env on plugs sent = (.ok (), sent')) (r : Relays) (hrel : ∀ s ∈ sockets, r s.id = s.on) :
    ∃ reqs r', sent' = sent ++ reqs ∧ Run r reqs r' ∧ (∀ s ∈ sockets, r' s.id = on) ∧
      ∀ i, (∀ s ∈ sockets, s.id ≠ i) → r' i = r i := by
  obtain ⟨reqs, n, h1, -, h3⟩ := C25_commands env on sockets plugs sent h hm
  rw [hr] at h1 h3
  obtain ⟨r', h4, h5⟩ := run_of on reqs _ r (h3 rfl)
  refine ⟨reqs, r', h1, h4, fun s hs => ?_, fun i hi => ?_⟩
  · rw [h5]
    by_cases hon : s.on = on
    · split
      · rfl
      · rw [hrel s hs, hon]
    · rw [if_pos]
      rw [List.mem_map]
      exact ⟨s, by rw [List.mem_filter]; exact ⟨hs, by simp [hon]⟩, rfl⟩
  · rw [h5, if_neg]
    rw [List.mem_map]
    rintro ⟨s, hs, rfl⟩
    exact hi s (List.mem_filter.mp hs).1 rfl

theorem read_twice (c : Option Int) (r : OnSince.Reading) : OnSince.read (OnSince.read c r) r = OnSince.read c r := by
  cases ht : OnSinceSpec.turnedOn r with
  | none => rw [OnSince.read_none ht, OnSince.read_none ht]
  | some t =>
    rw [OnSince.read_some ht, OnSince.read_some ht]
    unfold OnSince.keepOrReplace OnSince.second
    cases c with
    | none => simp
    | some c =>
      simp only
      split <;> simp_all

theorem reading_of {sys : Json} {sockets : List Socket} (h : Reports sys sockets) (time : Int) (s : Socket)
    (hs : s ∈ sockets) : ∃ r, plugReading sys time (.str s.id) = .ok r ∧ OnSinceSpec.turnedOn r = s.turnedOn time := by
  unfold plugReading
  rw [plugIsOn_of h s hs, childInfo_of h s hs]
  simp only [bind, Except.bind, item_onTime]
  unfold Socket.turnedOn OnSinceSpec.turnedOn
  cases s.on with
  | true => exact ⟨_, rfl, rfl⟩
  | false => exact ⟨_, rfl, rfl⟩

/-- What each socket says. -/
theorem C25_plug_on_since (sys : Json) (sockets : List Socket) (time : Int) (p : Plug) (s : Socket) (h : Reports sys sockets)
    (hs : s ∈ sockets) (hp : p.id = .str s.id) :
    ∃ r, OnSinceSpec.turnedOn r = s.turnedOn time ∧
      plugOnSince sys time p = .ok (OnSince.read p.since r, { p with since := OnSince.read p.since r }) := by
  obtain ⟨r, h1, h2⟩ := reading_of h time s hs
  refine ⟨r, h2, ?_⟩
  unfold plugOnSince
  rw [hp, h1]
  rfl

/-- What the sockets return, in order. -/
def values (sys : Json) (time : Int) (plugs : List Plug) : List (Option Int) :=
  plugs.map (fun p => match plugOnSince sys time p with | .ok (v, _) => v | .error _ => none)

theorem sinces_of {sys : Json} {sockets : List Socket} (h : Reports sys sockets) (time : Int) :
    ∀ (plugs : List Plug) (ss : List Socket), Matches plugs ss → (∀ s ∈ ss, s ∈ sockets) →
    sinces sys time plugs = .ok ((values sys time plugs).filterMap id) := by
  intro plugs
  induction plugs with
  | nil => intro ss _ _; rfl
  | cons p plugs ih =>
    intro ss hm hs
    cases ss with
    | nil => cases hm
    | cons s ss =>
      unfold Matches at hm
      simp only [List.map_cons, List.cons.injEq] at hm
      obtain ⟨r, h1, h2⟩ := reading_of h time s (hs s List.mem_cons_self)
      have hp : ∀ c, plugOnSince sys time { p with since := c } = .ok (OnSince.read c r, { p with since := OnSince.read c r }) := by
        intro c
        unfold plugOnSince
        simp only
        rw [hm.1, h1]
        rfl
      have ih' := ih ss hm.2 fun s h => hs s (List.mem_cons_of_mem _ h)
      unfold sinces values
      rw [List.map_cons]
      have hp0 := hp p.since
      have : ({ p with since := p.since } : Plug) = p := rfl
      rw [this] at hp0
      rw [hp0]
      simp only [bind, Except.bind, hp, read_twice, ih']
      cases hv : OnSince.read p.since r with
      | none => simp [values]
      | some v => simp [values]; rfl

theorem minimum_of {xs : List Int} {m : Int} (h : minimum xs = .ok m) : m ∈ xs ∧ ∀ x ∈ xs, m ≤ x := by
  cases xs with
  | nil => cases h
  | cons a l =>
    unfold minimum at h
    have key : ∀ (l : List Int) (a : Int), (l.foldl min a = a ∨ l.foldl min a ∈ l) ∧ l.foldl min a ≤ a ∧
        ∀ x ∈ l, l.foldl min a ≤ x := by
      intro l
      induction l with
      | nil => intro a; exact ⟨Or.inl rfl, Int.le_refl _, by simp⟩
      | cons b l ih =>
        intro a
        obtain ⟨h1, h2, h3⟩ := ih (min a b)
        rw [List.foldl_cons]
        refine ⟨?_, by omega, ?_⟩
        · rcases h1 with h1 | h1
          · rw [h1]
            rcases Int.le_total a b with hab | hab
            · exact Or.inl (Int.min_eq_left hab)
            · exact Or.inr (by rw [Int.min_eq_right hab]; exact List.mem_cons_self)
          · exact Or.inr (List.mem_cons_of_mem _ h1)
        · intro x hx
          rcases List.mem_cons.mp hx with rfl | hx
          · omega
          · exact h3 x hx
    obtain ⟨h1, h2, h3⟩ := key l a
    cases h
    refine ⟨?_, ?_⟩
    · rcases h1 with h1 | h1
      · rw [h1]; exact List.mem_cons_self
      · exact List.mem_cons_of_mem _ h1
    · intro x hx
      rcases List.mem_cons.mp hx with rfl | hx
      · exact h2
      · exact h3 x hx

/-- C25: the time the strip was turned on is the earliest of those the sockets return; nothing when all are off; and it
never raises. -/
theorem C25_on_since (sys : Json) (sockets : List Socket) (time : Int) (plugs : List Plug) (h : Reports sys sockets)
    (hm : Matches plugs sockets) :
    ((∀ s ∈ sockets, s.on = false) → onSince sys time plugs = .ok none) ∧
    ((∃ s ∈ sockets, s.on = true) → ∃ m, onSince sys time plugs = .ok (some m) ∧
      some m ∈ values sys time plugs ∧ ∀ x, some x ∈ values sys time plugs → m ≤ x) := by
  constructor
  · intro hoff
    unfold onSince
    rw [(C25_is_off sys sockets plugs h hm).mpr hoff]
    rfl
  · intro hon
    have hs := sinces_of h time plugs sockets hm (fun _ h => h)
    have hne : (values sys time plugs).filterMap id ≠ [] := by
      obtain ⟨s, hs, ho⟩ := hon
      have : Json.str s.id ∈ plugs.map (·.id) := by rw [hm]; exact List.mem_map.mpr ⟨s, hs, rfl⟩
      obtain ⟨p, hp, hid⟩ := List.mem_map.mp this
      obtain ⟨r, h1, h2⟩ := C25_plug_on_since sys sockets time p s h hs hid
      intro hnil
      have ht : OnSinceSpec.turnedOn r = some (time - s.onTime * 1000000) := by rw [h1]; unfold Socket.turnedOn; rw [ho]; rfl
      have : some (OnSince.keepOrReplace p.since (time - s.onTime * 1000000)) ∈ values sys time plugs := by
        refine List.mem_map.mpr ⟨p, hp, ?_⟩
        rw [h2]; simp only; rw [OnSince.read_some ht]
      have : OnSince.keepOrReplace p.since (time - s.onTime * 1000000) ∈ (values sys time plugs).filterMap id :=
        List.mem_filterMap.mpr ⟨_, this, rfl⟩
      rw [hnil] at this
      cases this
    cases hmin : minimum ((values sys time plugs).filterMap id) with
    | error e =>
      cases hx : (values sys time plugs).filterMap id with
      | nil => exact absurd hx hne
      | cons a l => rw [hx] at hmin; cases hmin
    | ok m =>
      obtain ⟨h3, h4⟩ := minimum_of hmin
      refine ⟨m, ?_, ?_, ?_⟩
      · unfold onSince
        rw [(C25_is_on sys sockets plugs h hm).mpr hon]
        simp only [bind, Except.bind, if_true, hs, hmin]
        rfl
      · obtain ⟨y, hy, he⟩ := List.mem_filterMap.mp h3
        simp only [id] at he
        rwa [he] at hy
      · intro x hx
        exact h4 x (List.mem_filterMap.mpr ⟨_, hx, rfl⟩)

/-! ## Examples -/

def demoSockets : List Socket := [⟨"00", true, 10, []⟩, ⟨"01", false, 0, [("alias", .str "tv")]⟩, ⟨"02", true, 30, []⟩]
def demoSys : Json := .obj [("alias", .str "strip"), ("children", .arr (demoSockets.map Socket.json))]
def demoPlugs : List Plug := [⟨.str "00", none⟩, ⟨.str "01", some 5⟩, ⟨.str "02", some 69000000⟩]

example : Reports demoSys demoSockets := ⟨rfl, by decide⟩
example : Matches demoPlugs demoSockets := rfl
example : isOn demoSys demoPlugs = .ok true := by rfl
example : onSince demoSys 100000000 demoPlugs = .ok (some 69000000) := by rfl
example : (switchAll ⟨fun _ => .ok (.obj [("system", .obj [("set_relay_state", .obj [("err_code", .num 0)])])]),
    fun _ => demoSys⟩ true demoPlugs []) = (.ok (),
      [.obj [("context", .obj [("child_ids", .arr [.str "01"])]),
        ("system", .obj [("set_relay_state", .obj [("state", .num 1)])])]]) := by rfl

end Kasa.Strip
