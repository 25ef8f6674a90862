import Verif.Spec.IotReadings
import Verif.Props.IotDevice
/-!
# Lemmas about legacy device objects before and after their first update
-/

namespace Kasa.IotReadings
open Ops

/-- An update that gets no answer. -/
theorem update_unanswered (env : Iot.Env) (h : ∀ sent, ∃ e, env.answer sent = .error e) (o : Obj) (hl : o.dev.lastUpdate = []) :
    (update env o).2.dev = o.dev ∧ (update env o).2.discovery = o.discovery ∧ (update env o).2.plugs = o.plugs := by
  obtain ⟨e, he⟩ := h (o.sent ++ [.obj Iot.sysInfoQuery])
  have hq : Iot.query env (.obj Iot.sysInfoQuery) ⟨o.dev, o.sent⟩ = (.error e, ⟨o.dev, o.sent ++ [.obj Iot.sysInfoQuery]⟩) := by
    unfold Iot.query
    simp only [PyM.bind_apply, PyM.modify_apply, PyM.get_apply, PyM.lift_apply, he]
  have hi : Iot.initialUpdate env ⟨o.dev, o.sent⟩ = (.error e, ⟨o.dev, o.sent ++ [.obj Iot.sysInfoQuery]⟩) := by
    unfold Iot.initialUpdate
    rw [PyM.bind_ok (PyM.get_apply _)]
    simp only [hl, List.isEmpty_nil, if_true]
    rw [PyM.bind_apply, hq]
  have hu : Iot.update env ⟨o.dev, o.sent⟩ = (.error e, ⟨o.dev, o.sent ++ [.obj Iot.sysInfoQuery]⟩) := by
    rw [Iot.update_eq, PyM.bind_apply, hi]
  unfold update
  simp only [hu]
  exact ⟨trivial, trivial, trivial⟩

/-- The state that `setSysInfo` leaves. -/
theorem setSysInfo_state (sys : Json) (o : Obj) : (setSysInfo sys o).2 = { o with dev := { o.dev with sysInfo := sys } } := by
  unfold setSysInfo
  simp only [PyM.bind_apply, PyM.modify_apply, PyM.lift_apply]
  cases getOpt sys "feature" <;> rfl

/-- The model that discovery tells, without the region. -/
def shortModel (s : String) : Json := .str (String.ofList (DeviceInfo.splitAt '(' s.toList).1)

theorem found_new (info : Info) (s : String) (h : Dict.get? info "system" = none) (hm : Dict.get? info "device_model" = some (.str s)) (o : Obj) :
    (found info o).2 =
      { o with discovery := some info, dev := { o.dev with sysInfo := .obj (Dict.set info "model" (shortModel s)) } } := by
  have h1 : sysInfoIn info = .ok .null := by unfold sysInfoIn; rw [h]
  have h2 : (do DeviceInfo.text (← item (.obj info) "device_model") : Except Exc String) = .ok s := by
    unfold item
    simp only [hm]
    rfl
  unfold found
  rw [PyM.bind_ok (PyM.modify_apply _ _), PyM.bind_ok (by rw [PyM.lift_apply, h1])]
  rw [if_neg (by decide), PyM.bind_ok (by rw [PyM.lift_apply, h2]), setSysInfo_state]
  rfl

theorem found_old (info sys : Info) (h : OldStyle info sys) (o : Obj) :
    (found info o).2 = { o with discovery := some info, dev := { o.dev with lastUpdate := info, sysInfo := .obj sys } } := by
  obtain ⟨hne, hk⟩ := h
  have h1 : sysInfoIn info = .ok (.obj sys) := by
    unfold IotSpec.known at hk
    unfold sysInfoIn
    cases hs : Dict.get? info "system" with
    | none => rw [hs] at hk; cases hk
    | some v =>
      rw [hs] at hk
      cases v with
      | obj kvs => simp only at hk; simp only [getOpt, hk]; rfl
      | _ => cases hk
  have ht : (Json.obj sys).truthy = true := by cases sys with | nil => exact absurd rfl hne | cons _ _ => rfl
  unfold found
  rw [PyM.bind_ok (PyM.modify_apply _ _), PyM.bind_ok (by rw [PyM.lift_apply, h1])]
  rw [if_pos ht, PyM.bind_ok (PyM.modify_apply _ _), setSysInfo_state]

/-- What is known when nothing was heard from the device itself. -/
def Told (o : Obj) (told : Option Info) : Prop :=
  o.dev.lastUpdate = [] ∧ o.plugs = [] ∧ match told with
    | none => o.dev.sysInfo = .null
    | some info => ∃ s, Dict.get? info "device_model" = some (.str s) ∧ o.dev.sysInfo = .obj (Dict.set info "model" (shortModel s))

theorem happen_told (h : Event) (hu : Unheard h) (o : Obj) (told : Option Info) (ho : Told o told) :
    Told (happen o h) (h.told.or told) := by
  cases h with
  | found info =>
    obtain ⟨hn, s, hs⟩ := hu
    unfold happen
    simp only [found_new info s hn hs, Event.told, Option.some_or]
    exact ⟨ho.1, ho.2.1, s, hs, rfl⟩
  | updated env =>
    obtain ⟨h1, -, h3⟩ := update_unanswered env hu o ho.1
    show Told (update env o).2 told
    unfold Told
    rw [h1, h3]
    exact ho

theorem after_told (hs : List Event) : ∀ (o : Obj) (told : Option Info), (∀ h ∈ hs, Unheard h) → Told o told →
    Told (after o hs) ((lastTold hs).or told) := by
  induction hs with
  | nil => intro o told _ h; exact h
  | cons h hs ih =>
    intro o told hu ho
    have := ih (happen o h) _ (fun x hx => hu x (.tail _ hx)) (happen_told h (hu h (.head _)) o told ho)
    show Told (after (happen o h) hs) _
    rw [lastTold, Option.or_assoc]
    exact this

theorem new_told (budget : Nat) : Told (new budget) none := ⟨rfl, rfl, rfl⟩

/-- The guard of a method whose name nothing was told about. -/
theorem guarded_untold {α : Type} (o : Obj) (name : String) (f : Except Exc α) (told : Option Info) (ho : Told o told)
    (hn : ∀ info, told = some info → Dict.get? info name = none) (hm : told.isSome → name ≠ "model") : guarded o name f = .error .kasa := by
  unfold guarded
  rw [ho.1]
  simp only [List.isEmpty_nil, if_true]
  cases told with
  | none =>
    have := ho.2.2
    simp only at this
    rw [this]
  | some info =>
    obtain ⟨s, -, hsys⟩ := ho.2.2
    rw [hsys]
    simp only [contains]
    have : Dict.has (Dict.set info "model" (shortModel s)) name = false := by
      unfold Dict.has
      rw [Dict.get?_set, if_neg (fun h => hm rfl h.symm), hn info rfl]
      rfl
    rw [this]
    rfl

theorem guarded_told {α : Type} (o : Obj) (name : String) (f : Except Exc α) (info : Info) (ho : Told o (some info))
    (hn : Dict.get? info name ≠ none ∨ name = "model") : guarded o name f = f := by
  unfold guarded
  rw [ho.1]
  simp only [List.isEmpty_nil, if_true]
  obtain ⟨s, -, hsys⟩ := ho.2.2
  rw [hsys]
  simp only [contains]
  have : Dict.has (Dict.set info "model" (shortModel s)) name = true := by
    unfold Dict.has
    rw [Dict.get?_set]
    split
    · rfl
    · rename_i hne
      rcases hn with h | h
      · exact Option.isSome_iff_ne_none.mpr h
      · exact absurd h.symm hne
  rw [this]
  rfl

theorem guarded_updated {α : Type} (o : Obj) (name : String) (f : Except Exc α) (h : o.dev.lastUpdate ≠ []) : guarded o name f = f := by
  unfold guarded
  cases hl : o.dev.lastUpdate with
  | nil => exact absurd hl h
  | cons _ _ => rfl

/-! ## Hardware information -/

theorem picked_keys (sys : Info) : ∀ keys : List String, Dict.keys (keys.filterMap fun k => (Dict.get? sys k).map fun v => (k, v)) =
    keys.filter fun k => (Dict.get? sys k).isSome := by
  intro keys
  induction keys with
  | nil => rfl
  | cons k keys ih =>
    rw [List.filterMap_cons, List.filter_cons]
    cases h : Dict.get? sys k with
    | none => simpa using ih
    | some v =>
      simp only [Option.map_some, Option.isSome_some, if_true]
      show k :: Dict.keys _ = _
      rw [ih]

theorem picked_get (sys : Info) (k : String) : ∀ keys : List String,
    Dict.get? (keys.filterMap fun k => (Dict.get? sys k).map fun v => (k, v)) k = if k ∈ keys then Dict.get? sys k else none := by
  intro keys
  induction keys with
  | nil => rfl
  | cons x keys ih =>
    rw [List.filterMap_cons]
    cases h : Dict.get? sys x with
    | none =>
      simp only [Option.map_none]
      rw [ih]
      by_cases hk : k = x
      · subst hk; simp [h]
      · simp [hk]
    | some v =>
      simp only [Option.map_some]
      rw [Dict.get?_cons, ih]
      by_cases hk : x = k
      · subst hk; simp [h]
      · have : k ≠ x := fun h => hk h.symm
        simp [hk, this]

theorem mac_colons (sys : Info) (a : String) (h : Dict.get? sys "mac" = some (.str a)) (hs : '-' ∈ a.toList ∨ ':' ∈ a.toList) :
    ∃ r, DeviceInfo.iotMac sys = .ok r ∧ WithColons a r := by
  have hne : a.isEmpty = false := by
    cases h' : a.isEmpty with
    | false => rfl
    | true =>
      have := String.isEmpty_iff.mp h'
      subst this
      simp at hs
  have hc : (DeviceInfo.dashesToColons a.toList).contains ':' = true := by
    rw [List.contains_iff_mem]
    unfold DeviceInfo.dashesToColons
    rw [List.mem_map]
    rcases hs with hs | hs
    · exact ⟨_, hs, rfl⟩
    · exact ⟨_, hs, rfl⟩
  refine ⟨String.ofList (DeviceInfo.dashesToColons a.toList), ?_, by unfold WithColons; rw [String.toList_ofList]; rfl⟩
  unfold DeviceInfo.iotMac DeviceInfo.formatMac
  rw [h]
  simp only [Option.getD_some, hne, hc, if_true, Bool.false_eq_true, if_false]

theorem shows_info (o : Obj) (sys : Info) (hl : o.dev.lastUpdate ≠ []) (hs : o.dev.sysInfo = .obj sys) (hne : sys ≠ []) : ShowsInfo o sys := by
  have hinfo : sysInfo o = .ok (.obj sys) := by unfold sysInfo; rw [guarded_updated _ _ _ hl, hs]
  have hmac : mac o = DeviceInfo.iotMac sys := by unfold mac; rw [guarded_updated _ _ _ hl, hs]
  refine ⟨hinfo, ?_, ?_, ?_, ?_, ?_, ?_, ?_⟩
  · unfold alias
    rw [hs]
    have : (Json.obj sys).truthy = true := by cases sys with | nil => exact absurd rfl hne | cons _ _ => rfl
    rw [if_pos this]
    rfl
  · refine ⟨_, by unfold hwInfo; rw [guarded_updated _ _ _ hl, hs], ?_, fun k => picked_get sys k hwKeys⟩
    unfold Dict.WF
    rw [picked_keys]
    exact List.Pairwise.filter _ (by decide)
  · intro p hp
    unfold location
    rw [guarded_updated _ _ _ hl, hs]
    cases hp with
    | degrees h1 h2 => simp only [h1, h2]
    | scaled h0 h1 h2 =>
      rcases h0 with h0 | h0
      · simp only [h0, h1, h2]; rfl
      · cases h3 : Dict.get? sys "latitude" <;> (simp only [h3, h0, h1, h2]; rfl)
    | nowhere h0 h1 =>
      cases h3 : Dict.get? sys "latitude" <;> cases h4 : Dict.get? sys "longitude" <;>
        cases h5 : Dict.get? sys "latitude_i" <;> cases h6 : Dict.get? sys "longitude_i" <;> simp_all
  · intro n hn
    unfold rssi
    rw [guarded_updated _ _ _ hl, hs]
    simp only [getOpt, hn]
    rfl
  · intro hn
    unfold rssi
    rw [guarded_updated _ _ _ hl, hs]
    simp only [getOpt, hn]
    rfl
  · intro n hn
    unfold isOn
    rw [guarded_updated _ _ _ hl, hinfo]
    show (do let y ← item (.obj sys) "relay_state"; pure y.truthy : Except Exc Bool) = _
    simp only [item, hn]
    show Except.ok (Json.num n).truthy = _
    by_cases h0 : n = 0 <;> simp [Json.truthy, h0]
  · intro a ha hd
    obtain ⟨r, h1, h2⟩ := mac_colons sys a ha hd
    refine ⟨r, hmac.trans h1, ?_, h2⟩
    unfold deviceId
    rw [guarded_updated _ _ _ hl, hmac, h1]

/-! ## What stays -/

theorem setSysInfo_supported (info : Info) : PyM.Rel (fun a b : Iot.W => b.dev.supported = a.dev.supported ∧ b.dev.lastUpdate = a.dev.lastUpdate)
    (Iot.setSysInfo info) := by
  intro s
  unfold Iot.setSysInfo
  simp only [PyM.bind_apply, PyM.modify_apply, PyM.lift_apply]
  cases SysInfo.extract (.obj info) with
  | error e => exact ⟨rfl, rfl⟩
  | ok sys =>
    simp only
    cases getOpt sys "feature" <;> exact ⟨rfl, rfl⟩

/-- What an update does not take away: the modules, and that something has been heard. -/
def Keeps (a b : Iot.W) : Prop :=
  (∀ ms, a.dev.supported = some ms → b.dev.supported = some ms) ∧ (a.dev.lastUpdate ≠ [] → b.dev.lastUpdate ≠ [])

theorem Keeps.refl (a : Iot.W) : Keeps a a := ⟨fun _ h => h, fun h => h⟩

theorem Keeps.trans (a b c : Iot.W) (h1 : Keeps a b) (h2 : Keeps b c) : Keeps a c :=
  ⟨fun ms h => h2.1 ms (h1.1 ms h), fun h => h2.2 (h1.2 h)⟩

theorem set_ne_nil (d : Info) (k : String) (v : Json) : Dict.set d k v ≠ [] := by
  intro h
  have := Dict.get?_set_self d k v
  rw [h] at this
  cases this

theorem mergeItem_ne {upd upd' : Info} {kv : String × Json} (h : Iot.mergeItem upd kv = .ok upd') (hu : upd ≠ []) : upd' ≠ [] := by
  unfold Iot.mergeItem at h
  split at h
  · split at h
    · cases h; exact set_ne_nil _ _ _
    · cases h; exact set_ne_nil _ _ _
    · cases h
  · cases h; exact hu

theorem mergeItems_ne : ∀ (kvs upd upd' : Info), Iot.mergeItems upd kvs = .ok upd' → upd ≠ [] → upd' ≠ [] := by
  intro kvs
  induction kvs with
  | nil => intro upd upd' h hu; cases h; exact hu
  | cons kv kvs ih =>
    intro upd upd' h hu
    unfold Iot.mergeItems at h
    simp only [bind, Except.bind] at h
    cases hm : Iot.mergeItem upd kv with
    | error e => rw [hm] at h; cases h
    | ok u => rw [hm] at h; exact ih u upd' h (mergeItem_ne hm hu)

theorem mergeResponses_ne : ∀ (rs : List Json) (upd upd' : Info), Iot.mergeResponses upd rs = .ok upd' → upd ≠ [] → upd' ≠ [] := by
  intro rs
  induction rs with
  | nil => intro upd upd' h hu; cases h; exact hu
  | cons r rs ih =>
    intro upd upd' h hu
    cases r with
    | obj kvs =>
      unfold Iot.mergeResponses at h
      simp only [bind, Except.bind] at h
      cases hm : Iot.mergeItems upd kvs with
      | error e => rw [hm] at h; cases h
      | ok u => rw [hm] at h; exact ih u upd' h (mergeItems_ne _ _ _ hm hu)
    | _ => cases h

theorem query_keeps (env : Iot.Env) (r : Json) : PyM.Rel (fun a b : Iot.W => b.dev = a.dev) (Iot.query env r) := by
  intro s
  unfold Iot.query
  simp only [PyM.bind_apply, PyM.modify_apply, PyM.get_apply, PyM.lift_apply]

theorem queryAll_keeps (env : Iot.Env) (rs : List Info) : PyM.Rel (fun a b : Iot.W => b.dev = a.dev) (Iot.queryAll env rs) := by
  induction rs with
  | nil => intro s; rfl
  | cons r rs ih =>
    unfold Iot.queryAll
    split
    · exact ih
    · exact PyM.Rel.bind (fun _ _ _ h1 h2 => h2.trans h1) (query_keeps env _) fun x =>
        PyM.Rel.bind (fun _ _ _ h1 h2 => h2.trans h1) ih fun xs _ => rfl

theorem setSupported_keeps (s : Iot.W) : Keeps s (Iot.setSupported s).2 ∧
    ((Iot.setSupported s).1 = .ok () → (Iot.setSupported s).2.dev.supported.isSome) := by
  unfold Iot.setSupported
  rw [PyM.bind_ok (PyM.get_apply s)]
  cases hs : s.dev.supported with
  | some ms => exact ⟨Keeps.refl s, fun _ => by show s.dev.supported.isSome = true; rw [hs]; rfl⟩
  | none =>
    simp only [PyM.bind_apply, PyM.lift_apply]
    cases Iot.supportedOf s.dev s.dev.modules with
    | error e => exact ⟨Keeps.refl s, fun h => nomatch h⟩
    | ok ms =>
      simp only [PyM.modify_apply]
      exact ⟨⟨fun ms h => by (rw [hs] at h; cases h), fun h => h⟩, fun _ => rfl⟩

theorem modular_keeps (env : Iot.Env) (req : Info) (s : Iot.W) : Keeps s (Iot.modularUpdate env req s).2 ∧
    ((Iot.modularUpdate env req s).1 = .ok () → (Iot.modularUpdate env req s).2.dev.supported.isSome) := by
  unfold Iot.modularUpdate
  rw [PyM.bind_ok (PyM.get_apply s)]
  simp only [PyM.bind_apply, PyM.lift_apply]
  cases Iot.supportedOf s.dev s.dev.modules with
  | error e => exact ⟨Keeps.refl s, fun h => nomatch h⟩
  | ok ms =>
    simp only
    cases Iot.pack s.dev.budget [] req (if Dict.has req "system" then 1024 else 0) ms with
    | error e => exact ⟨Keeps.refl s, fun h => nomatch h⟩
    | ok requests =>
      simp only
      have hq := queryAll_keeps env requests s
      revert hq
      cases Iot.queryAll env requests s with
      | mk r s1 =>
        intro hq
        simp only at hq
        cases r with
        | error e => exact ⟨⟨fun ms h => by (simp only [hq]; exact h), fun h => by (simp only [hq]; exact h)⟩, fun h => nomatch h⟩
        | ok responses =>
          simp only
          cases hm : Iot.mergeResponses s.dev.lastUpdate responses with
          | error e => exact ⟨⟨fun ms h => by (simp only [hq]; exact h), fun h => by (simp only [hq]; exact h)⟩, fun h => nomatch h⟩
          | ok upd =>
            simp only [PyM.modify_apply]
            have h2 := setSupported_keeps { s1 with dev := { s1.dev with lastUpdate := upd } }
            refine ⟨Keeps.trans s _ _ ⟨fun ms h => ?_, fun h => mergeResponses_ne _ _ _ hm h⟩ h2.1, h2.2⟩
            show s1.dev.supported = some ms
            rw [hq]
            exact h

theorem initial_keeps (env : Iot.Env) (s : Iot.W) : Keeps s (Iot.initialUpdate env s).2 := by
  unfold Iot.initialUpdate
  rw [PyM.bind_ok (PyM.get_apply s)]
  split
  · rename_i he
    have hn : s.dev.lastUpdate = [] := List.isEmpty_iff.mp he
    refine ⟨fun ms h => ?_, fun h => absurd hn h⟩
    rw [PyM.bind_apply]
    have hq := query_keeps env (.obj Iot.sysInfoQuery) s
    revert hq
    cases Iot.query env (.obj Iot.sysInfoQuery) s with
    | mk r s1 =>
      intro hq
      simp only at hq
      cases r with
      | error e => simp only [hq]; exact h
      | ok r =>
        simp only
        unfold Iot.firstAnswer
        cases r with
        | obj kvs =>
          simp only
          rw [PyM.bind_ok (PyM.modify_apply _ _)]
          rw [(setSysInfo_supported kvs _).1]
          show s1.dev.supported = some ms
          rw [hq]
          exact h
        | _ => show s1.dev.supported = some ms; rw [hq]; exact h
  · exact Keeps.refl s

theorem initModules_keeps' (env : Iot.Env) (s : Iot.W) : Keeps s (Iot.initModules env s).2 := by
  unfold Iot.initModules
  rw [PyM.modify_apply]
  simp only
  split <;> exact ⟨fun _ h => h, fun h => h⟩

theorem last_keeps (env : Iot.Env) (s : Iot.W) : (Iot.lastPart env s).2.dev.supported = s.dev.supported ∧
    (Iot.lastPart env s).2.dev.lastUpdate = s.dev.lastUpdate := by
  unfold Iot.lastPart
  rw [PyM.bind_ok (PyM.get_apply s), PyM.bind_apply]
  have h := setSysInfo_supported s.dev.lastUpdate s
  revert h
  cases Iot.setSysInfo s.dev.lastUpdate s with
  | mk r s1 =>
    intro h
    cases r with
    | error e => exact h
    | ok u =>
      simp only
      rw [PyM.bind_ok (PyM.get_apply s1), PyM.lift_apply]
      exact h

theorem update_keeps (env : Iot.Env) (s : Iot.W) : Keeps s (Iot.update env s).2 ∧
    ((Iot.update env s).1 = .ok () → (Iot.update env s).2.dev.supported.isSome) := by
  rw [Iot.update_eq, PyM.bind_apply]
  have h1 := initial_keeps env s
  revert h1
  cases Iot.initialUpdate env s with
  | mk r1 s1 =>
    intro h1
    cases r1 with
    | error e => exact ⟨h1, fun h => nomatch h⟩
    | ok u =>
      simp only
      rw [PyM.bind_apply]
      have h2 := initModules_keeps' env s1
      revert h2
      cases Iot.initModules env s1 with
      | mk r2 s2 =>
        intro h2
        have h2 := Keeps.trans _ _ _ h1 h2
        cases r2 with
        | error e => exact ⟨h2, fun h => nomatch h⟩
        | ok u =>
          simp only
          rw [PyM.bind_apply]
          have h3 := modular_keeps env Iot.sysInfoQuery s2
          revert h3
          cases Iot.modularUpdate env Iot.sysInfoQuery s2 with
          | mk r3 s3 =>
            intro h3
            have h4 := Keeps.trans _ _ _ h2 h3.1
            cases r3 with
            | error e => exact ⟨h4, fun h => nomatch h⟩
            | ok u =>
              simp only
              have h5 := last_keeps env s3
              refine ⟨Keeps.trans _ _ _ h4 ⟨fun ms h => h5.1.trans h, fun h => by rw [h5.2]; exact h⟩, fun _ => ?_⟩
              rw [h5.1]
              exact h3.2 rfl

theorem found_keeps (info : Info) (o : Obj) :
    (found info o).2.dev.supported = o.dev.supported ∧ (o.dev.lastUpdate ≠ [] → (found info o).2.dev.lastUpdate ≠ []) ∧
      (found info o).2.plugs = o.plugs ∧ (found info o).2.sent = o.sent := by
  unfold found
  rw [PyM.bind_ok (PyM.modify_apply _ _), PyM.bind_apply, PyM.lift_apply]
  cases hs : sysInfoIn info with
  | error e => exact ⟨rfl, fun h => h, rfl, rfl⟩
  | ok sys =>
    simp only
    split
    · rename_i ht
      rw [PyM.bind_ok (PyM.modify_apply _ _), setSysInfo_state]
      refine ⟨rfl, fun _ h => ?_, rfl, rfl⟩
      simp only at h
      subst h
      cases hs
      simp [Json.truthy] at ht
    · rw [PyM.bind_apply, PyM.lift_apply]
      cases (do DeviceInfo.text (← item (.obj info) "device_model") : Except Exc String) with
      | error e => exact ⟨rfl, fun h => h, rfl, rfl⟩
      | ok m => simp only [setSysInfo_state]; exact ⟨trivial, fun h => h, trivial, trivial⟩

theorem after_keeps (hs : List Event) : ∀ (o : Obj), ∀ ms, o.dev.supported = some ms → o.dev.lastUpdate ≠ [] →
    (after o hs).dev.supported = some ms ∧ (after o hs).dev.lastUpdate ≠ [] := by
  induction hs with
  | nil => intro o ms h1 h2; exact ⟨h1, h2⟩
  | cons h hs ih =>
    intro o ms h1 h2
    refine ih (happen o h) ms ?_ ?_
    · cases h with
      | found info => exact (found_keeps info o).1.trans h1
      | updated env => exact (update_keeps env ⟨o.dev, o.sent⟩).1.1 ms h1
    · cases h with
      | found info => exact (found_keeps info o).2.1 h2
      | updated env => exact (update_keeps env ⟨o.dev, o.sent⟩).1.2 h2

/-! ## Features -/

theorem head_unique {c : Char} : ∀ {p q r s : List Char}, p ++ r = q ++ s → c ∉ p → c ∉ q → (r = [] ∨ r.head? = some c) →
    (s = [] ∨ s.head? = some c) → p = q := by
  intro p
  induction p with
  | nil =>
    intro q r s h _ hq hr _
    cases q with
    | nil => rfl
    | cons x q =>
      rw [List.nil_append] at h
      rw [h] at hr
      rcases hr with hr | hr
      · cases hr
      · simp at hr
        exact absurd (hr ▸ List.mem_cons_self) hq
  | cons x p ih =>
    intro q r s h hp hq hr hs
    cases q with
    | nil =>
      rw [List.nil_append] at h
      rw [← h] at hs
      rcases hs with hs | hs
      · cases hs
      · simp at hs
        exact absurd (hs ▸ List.mem_cons_self) hp
    | cons y q =>
      rw [List.cons_append, List.cons_append, List.cons.injEq] at h
      rw [h.1, ih h.2 (fun hm => hp (.tail _ hm)) (fun hm => hq (.tail _ hm)) hr hs]

theorem splitAll_spec (c : Char) : ∀ s : List Char, ∃ h t, DeviceInfo.splitAll c s = h :: t ∧
    (c ∉ h ∧ ∃ r, s = h ++ r ∧ (r = [] ∨ r.head? = some c)) ∧
    ∀ p, p ∈ t ↔ c ∉ p ∧ ∃ b r, s = b ++ p ++ r ∧ b.getLast? = some c ∧ (r = [] ∨ r.head? = some c) := by
  intro s
  induction s with
  | nil =>
    refine ⟨[], [], rfl, ⟨by simp, [], rfl, .inl rfl⟩, fun p => ⟨fun h => (nomatch h), ?_⟩⟩
    rintro ⟨-, b, r, h, hb, -⟩
    have : b = [] := by
      cases b with
      | nil => rfl
      | cons _ _ => simp at h
    rw [this] at hb
    cases hb
  | cons x xs ih =>
    obtain ⟨h, t, he, ⟨hc, r0, hr0, hr0'⟩, ht⟩ := ih
    by_cases hx : x = c
    · refine ⟨[], h :: t, by rw [DeviceInfo.splitAll, if_pos hx, he], ⟨by simp, x :: xs, rfl, .inr (by rw [hx]; rfl)⟩, fun p => ?_⟩
      constructor
      · intro hp
        cases hp with
        | head => exact ⟨hc, [x], r0, by rw [hr0]; simp, by rw [hx]; rfl, hr0'⟩
        | tail _ hp =>
          obtain ⟨h1, b, r, h2, h3, h4⟩ := (ht p).mp hp
          refine ⟨h1, x :: b, r, by rw [h2]; simp, ?_, h4⟩
          cases b with
          | nil => cases h3
          | cons y b => rw [List.getLast?_cons_cons]; exact h3
      · rintro ⟨h1, b, r, h2, h3, h4⟩
        cases b with
        | nil => cases h3
        | cons y b =>
          simp only [List.cons_append, List.cons.injEq] at h2
          cases b with
          | nil =>
            have : h = p := head_unique (hr0.symm.trans (by simpa using h2.2)) hc h1 hr0' h4
            rw [this]
            exact .head _
          | cons z b =>
            refine .tail _ ((ht p).mpr ⟨h1, z :: b, r, by simpa using h2.2, ?_, h4⟩)
            rw [List.getLast?_cons_cons] at h3
            exact h3
    · refine ⟨x :: h, t, by rw [DeviceInfo.splitAll, if_neg hx, he], ⟨?_, r0, by rw [hr0]; rfl, hr0'⟩, fun p => ?_⟩
      · intro hm
        cases hm with
        | head => exact hx rfl
        | tail _ hm => exact hc hm
      · rw [ht]
        constructor
        · rintro ⟨h1, b, r, h2, h3, h4⟩
          refine ⟨h1, x :: b, r, by rw [h2]; simp, ?_, h4⟩
          cases b with
          | nil => cases h3
          | cons y b => rw [List.getLast?_cons_cons]; exact h3
        · rintro ⟨h1, b, r, h2, h3, h4⟩
          cases b with
          | nil => cases h3
          | cons y b =>
            simp only [List.cons_append, List.cons.injEq] at h2
            cases b with
            | nil => simp at h3; exact absurd (h2.1.trans h3) hx
            | cons z b =>
              rw [List.getLast?_cons_cons] at h3
              exact ⟨h1, z :: b, r, by simpa using h2.2, h3, h4⟩

theorem mem_parse (part s : String) : part ∈ parse s ↔ Part part s := by
  obtain ⟨h, t, he, ⟨hc, r0, hr0, hr0'⟩, ht⟩ := splitAll_spec ':' s.toList
  unfold parse
  rw [he, List.mem_map]
  constructor
  · rintro ⟨p, hp, rfl⟩
    cases hp with
    | head => exact ⟨by simpa using hc, [], r0, by simpa using hr0, .inl rfl, hr0'⟩
    | tail _ hp =>
      obtain ⟨h1, b, r, h2, h3, h4⟩ := (ht p).mp hp
      exact ⟨by simpa using h1, b, r, by simpa using h2, .inr h3, h4⟩
  · rintro ⟨h1, b, r, h2, h3, h4⟩
    refine ⟨part.toList, ?_, by simp⟩
    rcases h3 with rfl | h3
    · have : h = part.toList := head_unique (hr0.symm.trans (by simpa using h2)) hc h1 hr0' h4
      rw [this]
      exact .head _
    · exact .tail _ ((ht _).mpr ⟨h1, b, r, h2, h3, h4⟩)

theorem legacy_last (rs : List Info) : ∀ before : List String,
    rs.foldl legacyFeatures before = match lastFeatures rs with | some s => parse s | none => before := by
  induction rs with
  | nil => intro before; rfl
  | cons r rs ih =>
    intro before
    rw [List.foldl_cons, ih, lastFeatures]
    cases lastFeatures rs with
    | some s => rfl
    | none =>
      simp only [Option.none_or, legacyFeatures]
      cases Dict.get? r "feature" with
      | none => rfl
      | some v =>
        cases v with
        | str s =>
          simp only
          by_cases h : s = ""
          · subst h; rfl
          · have : s.isEmpty = false := by simpa using h
            simp [h, this]
        | _ => rfl

end Kasa.IotReadings
