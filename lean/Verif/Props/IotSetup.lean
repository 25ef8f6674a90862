import Verif.Spec.IotSetup
import Verif.Props.IotDevice
import Verif.Props.DeviceInfo
/-!
# C104: legacy devices offer the modules of their kind, and are asked for what these show
-/

namespace Kasa.IotSetup

open Ops SysInfo Iot IotSpec Spec

/-! ## Queries -/

/-- What a socket sends along. -/
def ctx : Kind → List (String × Json)
  | .socket id => [("context", .obj [("child_ids", .arr [.str id])])]
  | _ => []

/-- The query for some commands. -/
def form (kind : Kind) (t : String) (cmds : List (String × Json)) : List (String × Json) :=
  if cmds.isEmpty then [] else ctx kind ++ [(t, .obj cmds)]

theorem noArgs_arg (kind : Kind) (t c : String) (a : Option Json) (ht : t ≠ "context") :
    request kind t c a = .obj (ctx kind ++ [(t, .obj [(c, a.getD (noArgs kind))])]) := by
  cases kind <;> rfl

theorem mergeKvs_nil' (d : List (String × Json)) : mergeKvs d [] = .ok d := by rw [mergeKvs]

theorem mergeKvs_new (d s : List (String × Json)) (k : String) (v : Json) (h : Dict.get? d k = none) :
    mergeKvs d ((k, v) :: s) = mergeKvs (Dict.set d k v) s := by
  rw [mergeKvs, h]
  have : mergeVal none v = .ok v := by
    cases v <;> rw [mergeVal] <;> intros <;> simp_all
  rw [this]
  rfl

theorem mergeKvs_old (d s x y z : List (String × Json)) (k : String) (h : Dict.get? d k = some (.obj x)) (hm : mergeKvs x y = .ok z) :
    mergeKvs d ((k, .obj y) :: s) = mergeKvs (Dict.set d k (.obj z)) s := by
  rw [mergeKvs, h]
  have : mergeVal (some (.obj x)) (.obj y) = .ok (.obj z) := by
    rw [mergeVal, hm]
    rfl
  rw [this]
  rfl

theorem queryOf_form (kind : Kind) (t : String) (ht : t ≠ "context") (cmds : List (String × Option Json)) (hw : (cmds.map (·.1)).Nodup) :
    queryOf kind t cmds = form kind t (cmds.map (fun c => (c.1, c.2.getD (noArgs kind)))) := by
  have ht' : "context" ≠ t := fun h => ht h.symm
  have get_append : ∀ (l : List (String × Json)) (c : String), c ∉ Dict.keys l → ∀ a, Dict.set l c a = l ++ [(c, a)] := by
    intro l
    induction l with
    | nil => intro c _ a; rfl
    | cons p l ih =>
      intro c hc a
      obtain ⟨k, v⟩ := p
      rw [Dict.keys_cons, List.mem_cons, not_or] at hc
      rw [Dict.set, if_neg (fun h => hc.1 h.symm), ih c hc.2 a]
      rfl
  have step : ∀ (done : List (String × Json)) (c : String) (a : Option Json), c ∉ Dict.keys done →
      mergeOne (form kind t done) (request kind t c a) = form kind t (done ++ [(c, a.getD (noArgs kind))]) := by
    intro done c a hc
    rw [noArgs_arg kind t c a ht]
    have hn : Dict.get? done c = none := Dict.get?_eq_none_iff.mpr hc
    have hlast : ∀ d : List (String × Json), Dict.get? d c = none → ∀ v, mergeKvs d [(c, v)] = .ok (Dict.set d c v) := by
      intro d hd v
      rw [mergeKvs_new _ _ _ _ hd, mergeKvs_nil']
    cases done with
    | nil =>
      have e : form kind t [] = [] := rfl
      rw [e]
      cases kind with
      | socket id =>
        show (match mergeKvs [] [("context", Json.obj [("child_ids", .arr [.str id])]), (t, .obj [(c, a.getD (noArgs (.socket id)))])] with
          | .ok q => q
          | .error _ => []) = _
        rw [mergeKvs_new _ _ _ _ rfl, mergeKvs_new _ _ _ _ (by simp [Dict.set, Dict.get?_cons, ht']), mergeKvs_nil']
        simp [Dict.set, ht', form, ctx]
      | _ =>
        show (match mergeKvs [] [(t, Json.obj [(c, a.getD (.obj []))])] with
          | .ok q => q
          | .error _ => []) = _
        rw [mergeKvs_new _ _ _ _ rfl, mergeKvs_nil']
        rfl
    | cons p l =>
      have hs := get_append (p :: l) c hc (a.getD (noArgs kind))
      have hm := hlast (p :: l) hn (a.getD (noArgs kind))
      rw [hs] at hm
      cases kind with
      | socket id =>
        show (match mergeKvs [("context", Json.obj [("child_ids", .arr [.str id])]), (t, .obj (p :: l))]
            [("context", Json.obj [("child_ids", .arr [.str id])]), (t, .obj [(c, a.getD (noArgs (.socket id)))])] with
          | .ok q => q
          | .error _ => []) = _
        have hin : mergeKvs [("child_ids", Json.arr [.str id])] [("child_ids", .arr [.str id])] = .ok [("child_ids", .arr [.str id])] := by
          have hv : mergeVal (some (Json.arr [.str id])) (.arr [.str id]) = .ok (.arr [.str id]) := by
            rw [mergeVal]
            all_goals (intros; grind)
          have hg : Dict.get? [("child_ids", Json.arr [.str id])] "child_ids" = some (.arr [.str id]) := by simp [Dict.get?]
          rw [mergeKvs, hg, hv]
          show mergeKvs _ [] = _
          rw [mergeKvs_nil']
          simp [Dict.set]
        rw [mergeKvs_old _ _ _ _ _ _ (by simp [Dict.get?_cons]) hin,
          mergeKvs_old _ _ (p :: l) _ _ _ (by simp [Dict.set, Dict.get?_cons, ht']) hm, mergeKvs_nil']
        simp [Dict.set, ht', form, ctx]
      | _ =>
        show (match mergeKvs [(t, Json.obj (p :: l))] [(t, .obj [(c, a.getD (.obj []))])] with
          | .ok q => q
          | .error _ => []) = [(t, .obj (p :: l ++ [(c, a.getD (.obj []))]))]
        have hm' : mergeKvs (p :: l) [(c, a.getD (.obj []))] = .ok (p :: l ++ [(c, a.getD (.obj []))]) := hm
        rw [mergeKvs_old _ _ (p :: l) _ _ _ (by simp [Dict.get?_cons]) hm', mergeKvs_nil']
        simp [Dict.set]
  have gen : ∀ (rest : List (String × Option Json)) (done : List (String × Json)), (rest.map (·.1)).Nodup →
      (∀ c ∈ rest.map (·.1), c ∉ Dict.keys done) →
      (rest.map (fun c => request kind t c.1 c.2)).foldl mergeOne (form kind t done) =
        form kind t (done ++ rest.map (fun c => (c.1, c.2.getD (noArgs kind)))) := by
    intro rest
    induction rest with
    | nil => intro done _ _; simp
    | cons c rest ih =>
      intro done hw hd
      rw [List.map_cons, List.nodup_cons] at hw
      rw [List.map_cons, List.foldl_cons, step done c.1 c.2 (hd _ (by simp)), ih _ hw.2]
      · simp
      · intro x hx hm
        simp only [Dict.keys, List.map_append, List.map_cons, List.map_nil, List.mem_append, List.mem_singleton] at hm
        rcases hm with hm | rfl
        · exact hd x (by simp only [List.map_cons]; exact List.mem_cons_of_mem _ hx) hm
        · exact hw.1 hx
  have := gen cmds [] hw (by simp)
  simpa [queryOf, form] using this

/-! ## Modules -/

/-- The module does what the specification says of its name. -/
def Right (kind : Kind) (now : Int × Int) (p : String × Mod) : Prop :=
  p.2.query = form kind (service (lamp kind) p.1) (commands (decide (kind = .strip)) (noArgs kind) now p.1) ∧
    (commands (decide (kind = .strip)) (noArgs kind) now p.1 ≠ [] → p.2.needs = none ∧ p.2.target = service (lamp kind) p.1)

theorem right_asks {kind : Kind} {now : Int × Int} {n t : String} {size : Nat} {cmds : List (String × Option Json)}
    (ht : service (lamp kind) n = t) (hx : t ≠ "context") (hd : (cmds.map (·.1)).Nodup)
    (hc : commands (decide (kind = .strip)) (noArgs kind) now n = cmds.map (fun c => (c.1, c.2.getD (noArgs kind)))) :
    Right kind now (n, ⟨t, size, queryOf kind t cmds, none⟩) := by
  refine ⟨?_, fun _ => ⟨rfl, ht.symm⟩⟩
  show queryOf kind t cmds = _
  rw [queryOf_form kind t hx cmds hd, ht, hc]

theorem right_quiet {kind : Kind} {now : Int × Int} {n t : String} {size : Nat} {needs : Option String}
    (hc : commands (decide (kind = .strip)) (noArgs kind) now n = []) : Right kind now (n, ⟨t, size, [], needs⟩) := by
  refine ⟨?_, fun h => absurd hc h⟩
  show [] = form _ _ _
  simp only [hc]
  rfl

theorem add_right {kind : Kind} {now : Int × Int} {n : String} {m : Mod} {ms : Mods} (hm : Right kind now (n, m))
    (h : ∀ p ∈ ms, Right kind now p) : ∀ p ∈ add n m ms, Right kind now p := by
  intro p hp
  unfold add at hp
  split at hp
  · exact h p hp
  · rename_i hh
    have hn : n ∉ Dict.keys ms := by
      intro hk
      apply hh
      unfold Dict.has
      cases hg : Dict.get? ms n with
      | some _ => rfl
      | none => exact absurd hk (Dict.get?_eq_none_iff.mp hg)
    have hs : ∀ (l : Mods), n ∉ Dict.keys l → Dict.set l n m = l ++ [(n, m)] := by
      intro l
      induction l with
      | nil => intro _; rfl
      | cons q l ih =>
        intro hc
        obtain ⟨k, v⟩ := q
        rw [Dict.keys_cons, List.mem_cons, not_or] at hc
        rw [Dict.set, if_neg (fun h => hc.1 h.symm), ih hc.2]
        rfl
    rw [hs ms hn] at hp
    rcases List.mem_append.mp hp with hp | hp
    · exact h p hp
    · rw [List.mem_singleton.mp hp]
      exact hm

/-- Kinds whose modules have the plain names of services. -/
theorem right_device (kind : Kind) (ene : Bool) (now : Int × Int) (ms : Mods) (hk : kind ≠ .strip) (h : ∀ p ∈ ms, Right kind now p) :
    ∀ p ∈ deviceMods kind ene now ms, Right kind now p := by
  unfold deviceMods
  split
  · refine add_right (right_asks ?_ ?_ (by simp) ?_) h
    · cases kind <;> rfl
    · cases kind <;> simp [emeterType]
    · cases kind <;> first | exact absurd rfl hk | rfl
  · exact h

theorem right_plug (kind : Kind) (ene : Bool) (now : Int × Int) (ms : Mods) (hk : kind = .plug ∨ kind = .wallSwitch ∨ kind = .dimmer)
    (h : ∀ p ∈ ms, Right kind now p) : ∀ p ∈ plugMods kind ene now ms, Right kind now p := by
  unfold plugMods ruleMod usageMod timeMod cloudMod ledMod
  have h1 := right_device kind ene now ms (by rcases hk with rfl | rfl | rfl <;> simp) h
  rcases hk with rfl | rfl | rfl <;>
  · exact add_right (right_quiet rfl) <| add_right (right_asks rfl (by decide) (by simp) rfl) <|
      add_right (right_asks rfl (by decide) (by simp) rfl) <| add_right (right_asks rfl (by decide) (by simp) rfl) <|
      add_right (right_asks rfl (by decide) (by simp) rfl) <| add_right (right_asks rfl (by decide) (by simp) rfl) h1

theorem right_pir (kind : Kind) (now : Int × Int) (ms : Mods) (hk : kind = .wallSwitch ∨ kind = .dimmer)
    (h : ∀ p ∈ ms, Right kind now p) : ∀ p ∈ pirMods kind ms, Right kind now p := by
  unfold pirMods motionMod ambientMod
  rcases hk with rfl | rfl <;>
  · exact add_right (right_asks rfl (by decide) (by simp) rfl) <| add_right (right_asks rfl (by decide) (by simp) rfl) h

theorem right_bulb (kind : Kind) (ene : Bool) (now : Int × Int) (ms : Mods) (hk : kind = .bulb ∨ kind = .lightStrip)
    (h : ∀ p ∈ ms, Right kind now p) : ∀ p ∈ bulbMods kind ene now ms, Right kind now p := by
  unfold bulbMods ruleMod usageMod timeMod cloudMod quietMod
  have h1 := right_device kind ene now ms (by rcases hk with rfl | rfl <;> simp) h
  rcases hk with rfl | rfl <;>
  · exact add_right (right_quiet rfl) <| add_right (right_quiet rfl) <|
      add_right (right_asks rfl (by decide) (by simp) rfl) <| add_right (right_asks rfl (by decide) (by simp) rfl) <|
      add_right (right_asks rfl (by decide) (by simp) rfl) <| add_right (right_asks rfl (by decide) (by simp) rfl) <|
      add_right (right_asks rfl (by decide) (by simp) rfl) <| add_right (right_asks rfl (by decide) (by simp) rfl) <|
      add_right (right_asks rfl (by decide) (by simp) rfl) h1

theorem right_strip (ene : Bool) (now : Int × Int) : ∀ p ∈ stripMods .strip ene now [], Right .strip now p := by
  unfold stripMods ruleMod usageMod timeMod cloudMod ledMod quietMod
  have h1 := add_right (right_asks (kind := .strip) (now := now) (n := "cloud") (size := 256) (cmds := [("get_info", none)]) rfl (by decide) (by simp) rfl) <|
    add_right (right_quiet (n := "Led") (t := "system") (size := 256) (needs := some "led_off") rfl) <|
    add_right (right_asks (n := "countdown") (size := 256) (cmds := [("get_rules", none), ("get_next_action", none)]) rfl (by decide) (by simp) rfl) <|
    add_right (right_asks (n := "Time") (size := 256) (cmds := [("get_time", none), ("get_timezone", none)]) rfl (by decide) (by simp) rfl) <|
    add_right (right_asks (n := "usage") (size := 2048) (cmds := [("get_realtime", none),
      ("get_daystat", some (.obj [("year", .num now.1), ("month", .num now.2)])), ("get_monthstat", some (.obj [("year", .num now.1)]))])
      rfl (by decide) (by simp) rfl) <|
    add_right (right_asks (n := "schedule") (size := 256) (cmds := [("get_rules", none), ("get_next_action", none)]) rfl (by decide) (by simp) rfl) <|
    add_right (right_asks (n := "anti_theft") (size := 256) (cmds := [("get_rules", none), ("get_next_action", none)]) rfl (by decide) (by simp) rfl)
      (ms := []) (by simp)
  cases ene with
  | false => exact h1
  | true => exact add_right (right_quiet (n := "Energy") rfl) h1

theorem right_socket (id : String) (ene : Bool) (now : Int × Int) : ∀ p ∈ socketMods (.socket id) ene now [], Right (.socket id) now p := by
  unfold socketMods ruleMod usageMod
  have h0 : ∀ p ∈ (if hasEmeter (.socket id) ene then add "Energy" (usageMod (.socket id) now (emeterType (.socket id))) [] else []),
      Right (.socket id) now p := right_device (.socket id) ene now [] (by simp) (by simp)
  exact add_right (right_asks rfl (by decide) (by simp) rfl) <| add_right (right_asks rfl (by decide) (by simp) rfl) <|
    add_right (right_asks rfl (by decide) (by simp) rfl) <| add_right (right_asks rfl (by decide) (by simp) rfl) h0

theorem setup_switch_error (ene : Bool) (devName : Option Json) (now : Int × Int) (ms : Mods) (e : Exc) (h : hasPir devName = .error e) :
    setup .wallSwitch ene devName now ms = (plugMods .wallSwitch ene now ms, .error e) := by
  simp only [setup, h]

theorem setup_switch_true (ene : Bool) (devName : Option Json) (now : Int × Int) (ms : Mods) (h : hasPir devName = .ok true) :
    setup .wallSwitch ene devName now ms = (pirMods .wallSwitch (plugMods .wallSwitch ene now ms), .ok ()) := by
  simp only [setup, h]

theorem setup_switch_false (ene : Bool) (devName : Option Json) (now : Int × Int) (ms : Mods) (h : hasPir devName = .ok false) :
    setup .wallSwitch ene devName now ms = (plugMods .wallSwitch ene now ms, .ok ()) := by
  simp only [setup, h]

theorem dimmer_eq (kind : Kind) (ene : Bool) (now : Int × Int) (ms : Mods) : dimmerMods kind ene now ms =
    add "Light" (quietMod "light") (add "dimmer" (dimmerMod kind "smartlife.iot.dimmer") (pirMods kind (plugMods kind ene now ms))) := rfl

theorem right_dimmer (ene : Bool) (now : Int × Int) : ∀ p ∈ dimmerMods .dimmer ene now [], Right .dimmer now p := by
  have h := right_pir .dimmer now (plugMods .dimmer ene now []) (.inr rfl) (right_plug .dimmer ene now [] (by simp) (by simp))
  rw [dimmer_eq]
  generalize pirMods .dimmer (plugMods .dimmer ene now []) = ms at h ⊢
  unfold dimmerMod quietMod
  exact add_right (right_quiet (n := "Light") rfl) <|
    add_right (right_asks (n := "dimmer") rfl (by decide) (by simp) rfl) h

theorem right_switch (ene : Bool) (devName : Option Json) (now : Int × Int) :
    ∀ p ∈ (setup .wallSwitch ene devName now []).1, Right .wallSwitch now p := by
  have h := right_plug .wallSwitch ene now [] (by simp) (by simp)
  have h2 := right_pir .wallSwitch now (plugMods .wallSwitch ene now []) (.inl rfl) h
  have e1 := fun x => setup_switch_error ene devName now [] x
  have e2 := setup_switch_true ene devName now []
  have e3 := setup_switch_false ene devName now []
  generalize pirMods .wallSwitch (plugMods .wallSwitch ene now []) = m2 at *
  generalize plugMods .wallSwitch ene now [] = m1 at *
  cases hp : hasPir devName with
  | error e =>
    rw [e1 e hp]
    exact h
  | ok b =>
    cases b with
    | true =>
      rw [e2 hp]
      exact h2
    | false =>
      rw [e3 hp]
      exact h

theorem right_lightStrip (ene : Bool) (now : Int × Int) : ∀ p ∈ lightStripMods .lightStrip ene now [], Right .lightStrip now p := by
  have h := right_bulb .lightStrip ene now [] (by simp) (by simp)
  unfold lightStripMods
  generalize bulbMods .lightStrip ene now [] = ms at *
  unfold quietMod
  exact add_right (right_quiet (n := "LightEffect") rfl) h

theorem of_fst {kind : Kind} {now : Int × Int} {x : Mods × Except Exc Unit} {ms : Mods} (e : x.1 = ms)
    (h : ∀ p ∈ ms, Right kind now p) : ∀ p ∈ x.1, Right kind now p := by
  rw [e]
  exact h

theorem setup_right (kind : Kind) (ene : Bool) (devName : Option Json) (now : Int × Int) :
    ∀ p ∈ (setup kind ene devName now []).1, Right kind now p := by
  cases kind with
  | plug => exact of_fst (by rw [setup]) (right_plug .plug ene now [] (by simp) (by simp))
  | wallSwitch => exact right_switch ene devName now
  | dimmer => exact of_fst (by rw [setup]) (right_dimmer ene now)
  | bulb => exact of_fst (by rw [setup]) (right_bulb .bulb ene now [] (by simp) (by simp))
  | lightStrip => exact of_fst (by rw [setup]) (right_lightStrip ene now)
  | strip => exact of_fst (by rw [setup]) (right_strip ene now)
  | camera => exact of_fst (by rw [setup]) (right_device .camera ene now [] (by simp) (by simp))
  | socket id => exact of_fst (by rw [setup]) (right_socket id ene now)

/-- The names of the modules of a device, in order. -/
def names (kind : Kind) (ene pir : Bool) : List String :=
  let energy := if ene then ["Energy"] else []
  let plug := energy ++ ["schedule", "usage", "anti_theft", "Time", "cloud", "Led"]
  let bulb := ["Energy", "schedule", "usage", "anti_theft", "Time", "countdown", "cloud", "Light", "LightPreset"]
  match kind with
  | .plug => plug
  | .wallSwitch => plug ++ if pir then ["motion", "ambient"] else []
  | .dimmer => plug ++ ["motion", "ambient", "dimmer", "Light"]
  | .bulb => bulb
  | .lightStrip => bulb ++ ["LightEffect"]
  | .strip => ["anti_theft", "schedule", "usage", "Time", "countdown", "Led", "cloud"] ++ energy
  | .socket _ => energy ++ ["usage", "anti_theft", "schedule", "countdown"]
  | .camera => energy

theorem names_iff (kind : Kind) (ene pir : Bool) (name : String) : name ∈ names kind ene pir ↔ offers kind ene pir name = true := by
  constructor
  · have : ∀ n ∈ names kind ene pir, offers kind ene pir n = true := by
      cases kind <;> cases ene <;> cases pir <;> simp [names, offers, lamp]
    exact this name
  · intro h
    unfold offers at h
    split at h <;> cases kind <;> cases ene <;> cases pir <;> revert h <;> simp [names, lamp]

theorem names_nodup (kind : Kind) (ene pir : Bool) : (names kind ene pir).Nodup := by
  cases kind <;> cases ene <;> cases pir <;> simp [names]

theorem named_pir (devName : Option Json) (pir : Bool) (h : Named devName pir) : hasPir devName = .ok pir := by
  obtain ⟨s, rfl, hs⟩ := h
  show Except.ok (hasText "PIR" s) = _
  congr 1
  rw [Bool.eq_iff_iff, hs]
  exact DeviceInfo.isInfix_iff _ _

theorem keys_add (n : String) (m : Mod) (ms : Mods) :
    Dict.keys (add n m ms) = if n ∈ Dict.keys ms then Dict.keys ms else Dict.keys ms ++ [n] := by
  unfold add Dict.has
  cases hg : Dict.get? ms n with
  | some v =>
    have hk : n ∈ Dict.keys ms := Decidable.byContradiction fun hn => by rw [Dict.get?_eq_none_iff.mpr hn] at hg; cases hg
    simp [hk]
  | none =>
    have hn := Dict.get?_eq_none_iff.mp hg
    rw [if_neg hn, if_neg (by simp), Dict.keys_set, if_neg hn]

theorem setup_names (kind : Kind) (ene pir : Bool) (devName : Option Json) (now : Int × Int) (h : kind = .wallSwitch → Named devName pir) :
    Dict.keys (setup kind ene devName now []).1 = names kind ene pir ∧ (setup kind ene devName now []).2 = .ok () := by
  cases kind with
  | wallSwitch =>
    have hp := named_pir devName pir (h rfl)
    cases pir with
    | true =>
      rw [setup_switch_true ene devName now [] hp]
      cases ene <;> simp [pirMods, plugMods, deviceMods, hasEmeter, keys_add, names]
    | false =>
      rw [setup_switch_false ene devName now [] hp]
      cases ene <;> simp [plugMods, deviceMods, hasEmeter, keys_add, names]
  | _ =>
    cases ene <;> simp [setup, pirMods, plugMods, dimmerMods, bulbMods, lightStripMods, stripMods, socketMods, deviceMods, hasEmeter, keys_add, names]

/-- C104, the modules: a legacy device offers exactly the modules of its kind, each once.  This is partial: of wall switches it is
assumed that the device says its name. -/
theorem C104_modules_partial (kind : Kind) (ene pir : Bool) (devName : Option Json) (now : Int × Int)
    (h : kind = .wallSwitch → Named devName pir) :
    (setup kind ene devName now []).2 = .ok () ∧ Dict.WF (setup kind ene devName now []).1 ∧
      ∀ name, name ∈ Dict.keys (setup kind ene devName now []).1 ↔ offers kind ene pir name = true := by
  obtain ⟨h1, h2⟩ := setup_names kind ene pir devName now h
  refine ⟨h2, ?_, fun name => ?_⟩
  · unfold Dict.WF
    rw [h1]
    exact names_nodup kind ene pir
  · rw [h1]
    exact names_iff kind ene pir name

/-- C104: setting up happens once: the modules of a device that has some stay. -/
theorem C104_once (kind : Kind) (ene ene' : Bool) (devName devName' : Option Json) (now now' : Int × Int)
    (h : (ensure kind ene devName now []).1 ≠ []) :
    ensure kind ene' devName' now' (ensure kind ene devName now []).1 = ((ensure kind ene devName now []).1, .ok ()) := by
  generalize (ensure kind ene devName now []).1 = ms at h ⊢
  unfold ensure
  cases ms with
  | nil => exact absurd rfl h
  | cons p l => rfl

/-- C104 is false of a wall switch that does not say its name: the first update raises `KeyError`, and all the later ones find the
modules of a plug in place and go on with them. -/
theorem C104_switch_counterexample (ene ene' : Bool) (devName : Option Json) (now now' : Int × Int) :
    let first := ensure .wallSwitch ene none now []
    first.2 = .error (.other "KeyError") ∧ ensure .wallSwitch ene' devName now' first.1 = (first.1, .ok ()) ∧
      "Time" ∈ Dict.keys first.1 ∧ "motion" ∉ Dict.keys first.1 := by
  have he : ensure .wallSwitch ene none now [] = (plugMods .wallSwitch ene now [], .error (.other "KeyError")) :=
    setup_switch_error ene none now [] _ rfl
  have hk : Dict.keys (ensure .wallSwitch ene none now []).1 = names .plug ene false := by
    rw [he]
    cases ene <;> simp [plugMods, deviceMods, hasEmeter, keys_add, names]
  refine ⟨by rw [he], C104_once _ _ _ _ _ _ _ ?_, ?_, ?_⟩
  · intro h
    rw [h] at hk
    cases ene <;> simp [names] at hk
  · rw [hk]
    cases ene <;> decide
  · rw [hk]
    cases ene <;> decide

/-! ## What is asked -/

theorem service_ne (l : Bool) (n : String) : service l n ≠ "context" ∧ service l n ≠ "system" := by
  unfold service
  split <;> cases l <;> decide

/-- The names of modules that ask. -/
def asking : List String := ["Energy", "usage", "schedule", "anti_theft", "countdown", "Time", "cloud", "motion", "ambient", "dimmer"]

theorem asking_of (st : Bool) (e : Json) (now : Int × Int) (n : String) (h : commands st e now n ≠ []) : n ∈ asking := by
  unfold commands at h
  simp only at h
  split at h <;> simp_all [asking]

theorem command_names (st : Bool) (e : Json) (now : Int × Int) (n : String) :
    Dict.keys (commands st e now n) = Dict.keys (commands st .null (0, 0) n) := by
  unfold commands
  simp only
  split <;> cases st <;> rfl

theorem command_nodup (st : Bool) (n : String) : Dict.WF (commands st .null (0, 0) n) := by
  unfold commands
  simp only
  split <;> cases st <;> simp [Dict.WF]

theorem apart : ∀ st l : Bool, ∀ n ∈ asking, ∀ n' ∈ asking, n ≠ n' → service l n = service l n' →
    ∀ c ∈ Dict.keys (commands st .null (0, 0) n), c ∉ Dict.keys (commands st .null (0, 0) n') := by decide +kernel

theorem mem_keys_of_get {β : Type} {d : Dict String β} {k : String} {v : β} (h : Dict.get? d k = some v) : k ∈ Dict.keys d := by
  refine Decidable.byContradiction fun hn => ?_
  rw [Dict.get?_eq_none_iff.mpr hn] at h
  cases h

/-- A command of a service belongs to one module. -/
theorem same_name {st l : Bool} {e : Json} {now : Int × Int} {n n' c : String} {v w : Json} (hs : service l n = service l n')
    (h : Dict.get? (commands st e now n) c = some v) (h' : Dict.get? (commands st e now n') c = some w) : n = n' := by
  have m1 := mem_keys_of_get h
  have m2 := mem_keys_of_get h'
  rw [command_names] at m1 m2
  have a1 := asking_of st e now n (by intro hx; rw [hx] at h; cases h)
  have a2 := asking_of st e now n' (by intro hx; rw [hx] at h'; cases h')
  exact Decidable.byContradiction fun hn => apart st l n a1 n' a2 hn hs c m1 m2

/-- The arguments are nothing, or numbers by name. -/
theorem argument (st : Bool) (e : Json) (now : Int × Int) (n c : String) (a : Json) (h : (c, a) ∈ commands st e now n) :
    a = e ∨ ∃ kvs, a = .obj kvs ∧ Dict.WF kvs ∧ ∀ x ∈ kvs, ∃ i, x.2 = .num i := by
  have hd : ∃ kvs, Json.obj [("year", .num now.1), ("month", .num now.2)] = .obj kvs ∧ Dict.WF kvs ∧ ∀ x ∈ kvs, ∃ i, x.2 = .num i :=
    ⟨_, rfl, by simp [Dict.WF], by simp⟩
  have hm : ∃ kvs, Json.obj [("year", .num now.1)] = .obj kvs ∧ Dict.WF kvs ∧ ∀ x ∈ kvs, ∃ i, x.2 = .num i :=
    ⟨_, rfl, by simp [Dict.WF], by simp⟩
  unfold commands at h
  simp only at h
  split at h <;> (try split at h) <;>
    simp only [List.mem_cons, List.not_mem_nil, Prod.mk.injEq, or_false] at h <;>
    grind

theorem mem_of_get {d : List (String × Json)} {k : String} {v : Json} (h : Dict.get? d k = some v) : (k, v) ∈ d := by
  induction d with
  | nil => cases h
  | cons p d ih =>
    obtain ⟨x, y⟩ := p
    rw [Dict.get?_cons] at h
    split at h
    · rename_i hx
      cases h
      simp only at hx
      rw [hx]
      exact List.mem_cons_self
    · exact List.mem_cons_of_mem _ (ih h)

theorem get_of_mem {d : List (String × Json)} (hw : Dict.WF d) {k : String} {v : Json} (h : (k, v) ∈ d) : Dict.get? d k = some v := by
  induction d with
  | nil => cases h
  | cons p d ih =>
    obtain ⟨x, y⟩ := p
    have hw' := Dict.WF_cons.mp hw
    rw [Dict.get?_cons]
    rcases List.mem_cons.mp h with h | h
    · cases h
      simp
    · have : x ≠ k := by
        rintro rfl
        exact hw'.1 (List.mem_map.mpr ⟨_, h, rfl⟩)
      simp only [this, if_false]
      exact ih hw'.2 h

theorem noArgs_proper (kind : Kind) : Proper (noArgs kind) := by
  cases kind with
  | socket id => exact .null
  | _ => exact .obj [] (by simp [Dict.WF]) (by simp)

theorem command_wf (st : Bool) (e : Json) (now : Int × Int) (n : String) : Dict.WF (commands st e now n) := by
  have := command_nodup st n
  unfold Dict.WF at this ⊢
  rwa [command_names]

theorem form_proper (kind : Kind) (st : Bool) (now : Int × Int) (n : String) :
    Proper (.obj (form kind (service (lamp kind) n) (commands st (noArgs kind) now n))) := by
  have hc : Proper (.obj (commands st (noArgs kind) now n)) := by
    refine .obj _ (command_wf ..) ?_
    rintro ⟨c, a⟩ h
    rcases argument st _ now n c a h with rfl | ⟨kvs, rfl, hw, hn⟩
    · exact noArgs_proper kind
    · refine .obj _ hw fun x hx => ?_
      obtain ⟨i, hi⟩ := hn x hx
      rw [hi]
      exact .num i
  unfold form
  split
  · exact .obj [] (by simp [Dict.WF]) (by simp)
  · have hs := (service_ne (lamp kind) n).1
    cases kind with
    | socket id =>
      refine .obj _ ?_ ?_
      · simp only [ctx, Dict.WF, Dict.keys, List.map_cons, List.map_nil, List.cons_append, List.nil_append]
        simp only [List.nodup_cons, List.mem_singleton, List.not_mem_nil, not_false_eq_true, List.nodup_nil, and_true]
        exact fun h => hs h.symm
      · intro kv hkv
        simp only [ctx, List.cons_append, List.nil_append, List.mem_cons, List.not_mem_nil, or_false] at hkv
        rcases hkv with rfl | rfl
        · refine .obj _ (by simp [Dict.WF]) ?_
          intro kv hkv
          rw [List.mem_singleton.mp hkv]
          refine .arr _ ?_
          intro x hx
          rw [List.mem_singleton.mp hx]
          exact .str id
        · exact hc
    | _ =>
      refine .obj _ (by simp [ctx, Dict.WF]) ?_
      intro kv hkv
      simp only [ctx, List.nil_append, List.mem_singleton] at hkv
      rw [hkv]
      exact hc

/-- What stands in a query: what a socket sends along, and the commands. -/
theorem form_get {kind : Kind} {t k : String} {cmds : List (String × Json)} {v : Json} (h : Dict.get? (form kind t cmds) k = some v) :
    (k = "context" ∧ ∃ id, kind = .socket id ∧ v = .obj [("child_ids", .arr [.str id])]) ∨ (k = t ∧ v = .obj cmds) := by
  unfold form at h
  split at h
  · cases h
  · cases kind with
    | socket id =>
      simp only [ctx, List.cons_append, List.nil_append, Dict.get?_cons, Dict.get?_nil] at h
      split at h
      · rename_i hk
        cases h
        exact .inl ⟨hk.symm, id, rfl, rfl⟩
      · split at h
        · rename_i hk
          cases h
          exact .inr ⟨hk.symm, rfl⟩
        · cases h
    | _ =>
      simp only [ctx, List.nil_append, Dict.get?_cons, Dict.get?_nil] at h
      split at h
      · rename_i hk
        cases h
        exact .inr ⟨hk.symm, rfl⟩
      · cases h

theorem form_service {kind : Kind} {t : String} {cmds : List (String × Json)} (ht : t ≠ "context") (hc : cmds ≠ []) :
    Dict.get? (form kind t cmds) t = some (.obj cmds) := by
  have h1 : cmds.isEmpty = false := by
    cases cmds with
    | nil => exact absurd rfl hc
    | cons _ _ => rfl
  unfold form
  rw [h1]
  cases kind with
  | socket id =>
    have ht' : "context" ≠ t := fun h => ht h.symm
    simp [ctx, Dict.get?_cons, ht']
  | _ => simp [ctx, Dict.get?_cons]

theorem right_agree {kind : Kind} {now : Int × Int} {p q : String × Mod} (hp : Right kind now p) (hq : Right kind now q) :
    Agree (.obj p.2.query) (.obj q.2.query) := by
  rw [hp.1, hq.1]
  refine .dict _ _ fun k v w hv hw => ?_
  rcases form_get hv with ⟨hk, id, hid, rfl⟩ | ⟨hk, rfl⟩
  · rcases form_get hw with ⟨_, id', hid', rfl⟩ | ⟨hk', _⟩
    · rw [hid] at hid'
      cases hid'
      exact .same _
    · exact absurd (hk'.symm.trans hk) (service_ne _ _).1
  · rcases form_get hw with ⟨hk', _⟩ | ⟨hk', rfl⟩
    · exact absurd (hk.symm.trans hk') (service_ne _ _).1
    · refine .dict _ _ fun c v w hv hw => ?_
      have hn := same_name (hk.symm.trans hk') hv hw
      rw [hn, hw] at hv
      cases hv
      exact .same _

theorem base_agree {kind : Kind} {now : Int × Int} {p : String × Mod} (hp : Right kind now p) :
    Agree (.obj (base kind)) (.obj p.2.query) := by
  rw [hp.1]
  refine .dict _ _ fun k v w hv hw => ?_
  cases kind with
  | socket id => cases hv
  | _ =>
    simp only [base, sysInfoQuery, Dict.get?_cons, Dict.get?_nil] at hv
    split at hv
    · rename_i hk
      rcases form_get hw with ⟨_, id, hid, _⟩ | ⟨hk', _⟩
      · cases hid
      · exact absurd (hk'.symm.trans hk.symm) (service_ne _ _).2
    · cases hv

theorem partOf_follow : ∀ (path : List String) (q r a : Json), PartOf q r → follow q path = some a → ∃ w, follow r path = some w ∧ PartOf a w
  | [], q, r, a, h, hf => by
    cases hf
    exact ⟨r, by cases r <;> rfl, h⟩
  | k :: path, q, r, a, h, hf => by
    cases h with
    | same => exact ⟨a, hf, .same _⟩
    | dict x y hh hv =>
      simp only [follow] at hf ⊢
      cases hx : Dict.get? x k with
      | none => rw [hx] at hf; cases hf
      | some v =>
        rw [hx] at hf
        cases hy : Dict.get? y k with
        | none => exact absurd hy (hh k v hx)
        | some w => exact partOf_follow path v w a (hv k v w hx hy) hf

theorem groups (budget est : Nat) (req : List (String × Json)) (ms : List Mod) (out : List (List (String × Json)))
    (hp : ∀ m ∈ ms, Proper (.obj m.query)) (har : ∀ m ∈ ms, Agree (.obj req) (.obj m.query))
    (hag : ∀ m ∈ ms, ∀ m' ∈ ms, Agree (.obj m.query) (.obj m'.query)) (ho : pack budget [] req est ms = .ok out) :
    (∀ r ∈ out, ∃ g : List Mod, (∀ m ∈ g, m ∈ ms ∧ PartOf (.obj m.query) (.obj r)) ∧
      ∀ path, follow (.obj r) path ≠ none → follow (.obj req) path ≠ none ∨ ∃ m ∈ g, follow (.obj m.query) path ≠ none) ∧
    (∀ m ∈ ms, ∃ r ∈ out, PartOf (.obj m.query) (.obj r)) := by
  obtain ⟨out', first, rest, h1, h2, h3, h4, h5⟩ := C22_requests budget est req ms hp har hag
  rw [ho] at h1
  cases h1
  refine ⟨?_, ?_⟩
  · intro r hr
    obtain ⟨i, hi⟩ := List.getElem?_of_mem hr
    cases i with
    | zero =>
      obtain ⟨_, h6, h7⟩ := h4 r hi
      exact ⟨first, fun m hm => ⟨by rw [← h2.all]; exact List.mem_append_left _ hm, h6 m hm⟩, h7⟩
    | succ i =>
      have hlt : i < rest.length := by
        have := (List.getElem?_eq_some_iff.mp hi).1
        omega
      obtain ⟨h6, h7⟩ := h5 i rest[i] r (List.getElem?_eq_getElem hlt) hi
      refine ⟨rest[i], fun m hm => ⟨?_, h6 m hm⟩, fun path hx => .inr (h7 path hx)⟩
      rw [← h2.all]
      exact List.mem_append_right _ (List.mem_flatten.mpr ⟨_, List.getElem_mem hlt, hm⟩)
  · intro m hm
    rw [← h2.all] at hm
    rcases List.mem_append.mp hm with hm | hm
    · have h0 : 0 < out.length := by omega
      obtain ⟨_, h6, _⟩ := h4 out[0] (List.getElem?_eq_getElem h0)
      exact ⟨out[0], List.getElem_mem h0, h6 m hm⟩
    · obtain ⟨g, hg, hm⟩ := List.mem_flatten.mp hm
      obtain ⟨i, hi⟩ := List.getElem?_of_mem hg
      have hlt : i + 1 < out.length := by
        have := (List.getElem?_eq_some_iff.mp hi).1
        omega
      obtain ⟨h6, _⟩ := h5 i g out[i + 1] hi (List.getElem?_eq_getElem hlt)
      exact ⟨out[i + 1], List.getElem_mem hlt, h6 m hm⟩

theorem supported_mem {d : Dev} : ∀ {l ms : List Mod}, supportedOf d l = .ok ms →
    (∀ m ∈ ms, m ∈ l ∧ m.isSupported d = .ok true) ∧ (∀ m ∈ l, m.isSupported d = .ok true → m ∈ ms)
  | [], ms, h => by
    cases h
    exact ⟨by simp, by simp⟩
  | x :: l, ms, h => by
    rw [supportedOf] at h
    cases hx : x.isSupported d with
    | error e => rw [hx] at h; cases h
    | ok b =>
      rw [hx] at h
      cases hr : supportedOf d l with
      | error e => rw [hr] at h; cases h
      | ok rest =>
        rw [hr] at h
        obtain ⟨h1, h2⟩ := supported_mem hr
        cases b with
        | true =>
          cases h
          refine ⟨?_, ?_⟩
          · intro m hm
            rcases List.mem_cons.mp hm with rfl | hm
            · exact ⟨List.mem_cons_self, hx⟩
            · exact ⟨List.mem_cons_of_mem _ (h1 m hm).1, (h1 m hm).2⟩
          · intro m hm hs
            rcases List.mem_cons.mp hm with rfl | hm
            · exact List.mem_cons_self
            · exact List.mem_cons_of_mem _ (h2 m hm hs)
        | false =>
          cases h
          refine ⟨fun m hm => ⟨List.mem_cons_of_mem _ (h1 m hm).1, (h1 m hm).2⟩, ?_⟩
          intro m hm hs
          rcases List.mem_cons.mp hm with rfl | hm
          · rw [hx] at hs; cases hs
          · exact h2 m hm hs

theorem supported_iff (d : Dev) (hl : ∀ t v, Dict.get? d.lastUpdate t = some v → ∃ kvs, v = .obj kvs) (m : Mod) (hn : m.needs = none)
    (hq : m.query ≠ []) : m.isSupported d = .ok true ↔ ¬ Spec.Refused d.lastUpdate m.target := by
  obtain ⟨asked, h1, _, h3⟩ := C22_asked d hl [m] (by simp [hn, hq])
  have h4 := h3 m List.mem_cons_self
  have hs := supported_mem h1
  constructor
  · intro h
    exact h4.mp (hs.2 m List.mem_cons_self h)
  · intro h
    exact (hs.1 m (h4.mpr h)).2

/-- C104: an update of a legacy device asks for every command that its modules show, of every service the device has not refused, with
exactly the arguments it should have, and for nothing else but the system information; and what is asked for a socket names that
socket and no other. -/
theorem C104_asked (env : Env) (kind : Kind) (ene pir : Bool) (devName : Option Json) (now : Int × Int)
    (hname : kind = .wallSwitch → Named devName pir) (w w' : W)
    (hm : w.dev.modules = (setup kind ene devName now []).1.map (·.2))
    (hl : ∀ t v, Dict.get? w.dev.lastUpdate t = some v → ∃ kvs, v = .obj kvs)
    (hu : modularUpdate env (base kind) w = (.ok (), w')) :
    ∃ requests, w'.sent = w.sent ++ requests ∧
      (∀ s c a, Asked kind ene pir now s c a → ¬ Spec.Refused w.dev.lastUpdate s → ∃ r ∈ requests, Carries r s c a) ∧
      (∀ r ∈ requests, ∀ s c, follow r [s, c] ≠ none →
        (s = "system" ∧ c = "get_sysinfo" ∧ ∀ id, kind ≠ .socket id) ∨ (s = "context" ∧ c = "child_ids" ∧ ∃ id, kind = .socket id) ∨
        ∃ a, Asked kind ene pir now s c a ∧ ¬ Spec.Refused w.dev.lastUpdate s) ∧
      (∀ r ∈ requests, ∀ id, kind = .socket id → follow r ["context", "child_ids"] = some (.arr [.str id])) := by
  obtain ⟨ms, out, answers, hs, hpk, hsent, _⟩ := C22_answers env (base kind) w w' hu
  have hsup := supported_mem hs
  have hkeys := (setup_names kind ene pir devName now hname).1
  have hright := setup_right kind ene devName now
  have hmod : ∀ m ∈ ms, ∃ n, (n, m) ∈ (setup kind ene devName now []).1 ∧ Right kind now (n, m) ∧ offers kind ene pir n = true := by
    intro m hmm
    have := (hsup.1 m hmm).1
    rw [hm] at this
    obtain ⟨⟨n, m'⟩, hp, rfl⟩ := List.mem_map.mp this
    refine ⟨n, hp, hright _ hp, ?_⟩
    rw [← names_iff, ← hkeys]
    exact List.mem_map.mpr ⟨_, hp, rfl⟩
  have hgr := groups _ _ (base kind) ms out
    (fun m hmm => by
      obtain ⟨n, _, hr, _⟩ := hmod m hmm
      have := hr.1
      simp only at this
      rw [this]
      exact form_proper kind _ now n)
    (fun m hmm => by
      obtain ⟨n, _, hr, _⟩ := hmod m hmm
      exact base_agree hr)
    (fun m hmm m' hmm' => by
      obtain ⟨n, _, hr, _⟩ := hmod m hmm
      obtain ⟨n', _, hr', _⟩ := hmod m' hmm'
      exact right_agree hr hr') hpk
  have hnot : ∀ m ∈ ms, ∀ n, Right kind now (n, m) → commands (decide (kind = .strip)) (noArgs kind) now n ≠ [] →
      ¬ Spec.Refused w.dev.lastUpdate (service (lamp kind) n) := by
    intro m hmm n hr hc
    obtain ⟨h1, h2⟩ := hr.2 hc
    simp only at h1 h2
    rw [← h2]
    refine (supported_iff w.dev hl m h1 ?_).mp (hsup.1 m hmm).2
    intro hq
    have hf := form_service (kind := kind) (service_ne (lamp kind) n).1 hc
    have := hr.1
    simp only at this
    rw [← this, hq] at hf
    cases hf
  have hin : ∀ m ∈ ms, ∀ s c, follow (.obj m.query) [s, c] ≠ none →
      (s = "context" ∧ c = "child_ids" ∧ ∃ id, kind = .socket id) ∨
      ∃ n a, Right kind now (n, m) ∧ offers kind ene pir n = true ∧ s = service (lamp kind) n ∧
        Dict.get? (commands (decide (kind = .strip)) (noArgs kind) now n) c = some a := by
    intro m hmm s c hf
    obtain ⟨n, _, hr, ho⟩ := hmod m hmm
    have hq := hr.1
    simp only at hq
    rw [hq] at hf
    simp only [follow] at hf
    cases hg : Dict.get? (form kind (service (lamp kind) n) (commands (decide (kind = .strip)) (noArgs kind) now n)) s with
    | none => rw [hg] at hf; exact absurd rfl hf
    | some v =>
      rw [hg] at hf
      rcases form_get hg with ⟨hk, id, hid, rfl⟩ | ⟨hk, rfl⟩
      · left
        refine ⟨hk, ?_, id, hid⟩
        simp only [follow, Dict.get?_cons, Dict.get?_nil] at hf
        by_cases hc : "child_ids" = c
        · exact hc.symm
        · simp [hc] at hf
      · right
        simp only [follow] at hf
        cases hc : Dict.get? (commands (decide (kind = .strip)) (noArgs kind) now n) c with
        | none => rw [hc] at hf; exact absurd rfl hf
        | some a => exact ⟨n, a, hr, ho, hk, hc⟩
  have hbase : ∀ s path, follow (.obj (base kind)) (s :: path) ≠ none → s = "system" ∧ (∀ c, path = [c] → c = "get_sysinfo") ∧ ∀ id, kind ≠ .socket id := by
    intro s path hf
    cases kind with
    | socket id => simp [base, follow] at hf
    | _ =>
      simp only [base, sysInfoQuery, follow, Dict.get?_cons, Dict.get?_nil] at hf
      by_cases hx : "system" = s
      · refine ⟨hx.symm, ?_, by simp⟩
        rintro c rfl
        simp only [hx, if_true, follow, Dict.get?_cons, Dict.get?_nil] at hf
        by_cases hc : "get_sysinfo" = c
        · exact hc.symm
        · simp [hc] at hf
      · simp [hx] at hf
  refine ⟨nonEmpty out, hsent, ?_, ?_, ?_⟩
  · rintro s c a ⟨n, ho, rfl, hca⟩ href
    have hc : commands (decide (kind = .strip)) (noArgs kind) now n ≠ [] := by
      intro hx
      rw [hx] at hca
      cases hca
    have hget := get_of_mem (command_wf ..) hca
    have hk : n ∈ Dict.keys (setup kind ene devName now []).1 := by
      rw [hkeys, names_iff]
      exact ho
    obtain ⟨⟨n', m⟩, hp, rfl⟩ := List.mem_map.mp hk
    simp only at hc hget hca href ⊢
    have hr := hright _ hp
    have hq := hr.1
    simp only at hq
    obtain ⟨h1, h2⟩ := hr.2 hc
    simp only at h1 h2
    have hfs := form_service (kind := kind) (service_ne (lamp kind) n').1 hc
    rw [← hq] at hfs
    have hmm : m ∈ ms := by
      refine hsup.2 m (by rw [hm]; exact List.mem_map.mpr ⟨_, hp, rfl⟩) ((supported_iff w.dev hl m h1 ?_).mpr (by rw [h2]; exact href))
      intro hx
      rw [hx] at hfs
      cases hfs
    have hff : follow (.obj m.query) [service (lamp kind) n', c] = some a := by
      simp only [follow, hfs, hget]
    obtain ⟨r, hrm, hpart⟩ := hgr.2 m hmm
    obtain ⟨x, hx, hax⟩ := partOf_follow _ _ _ _ hpart hff
    have hrne : r ≠ [] := by
      rintro rfl
      simp [follow] at hx
    refine ⟨.obj r, List.mem_map.mpr ⟨r, List.mem_filter.mpr ⟨hrm, by simp [hrne]⟩, rfl⟩, x, hx, hax, ?_⟩
    cases hax with
    | same => exact .same _
    | dict kvs kvs' hhas hval =>
      have hnum : ∀ k v, Dict.get? kvs k = some v → ∃ i, v = .num i := by
        intro k v hv
        rcases argument _ _ now n' c _ hca with he | ⟨l, he, _, hn⟩
        · exfalso
          cases kind with
          | socket id => cases he
          | _ =>
            cases he
            cases hv
        · cases he
          exact hn _ (mem_of_get hv)
      refine .dict _ _ ?_ ?_
      · intro k v hv hnone
        have hp3 : follow (.obj r) [service (lamp kind) n', c, k] ≠ none := by
          have : follow (.obj r) [service (lamp kind) n', c, k] = follow (.obj kvs') [k] := by
            simp only [follow] at hx ⊢
            cases h5 : Dict.get? r (service (lamp kind) n') with
            | none => rw [h5] at hx; cases hx
            | some y =>
              rw [h5] at hx
              simp only at hx ⊢
              cases y with
              | obj z =>
                simp only [follow] at hx ⊢
                cases h6 : Dict.get? z c with
                | none => rw [h6] at hx; cases hx
                | some u =>
                  rw [h6] at hx
                  simp only at hx ⊢
                  have : u = .obj kvs' := by
                    simpa [follow] using hx
                  rw [this]
                  rfl
              | _ => cases hx
          rw [this]
          simp only [follow, hv]
          cases v <;> simp [follow]
        obtain ⟨g, hg1, hg2⟩ := hgr.1 r hrm
        rcases hg2 _ hp3 with hb | ⟨m2, hm2, hf2⟩
        · exact (service_ne (lamp kind) n').2 (hbase _ _ hb).1
        · have hshort : follow (.obj m2.query) [service (lamp kind) n', c] ≠ none := by
            intro hx2
            apply hf2
            simp only [follow] at hx2 ⊢
            cases h5 : Dict.get? m2.query (service (lamp kind) n') with
            | none => rfl
            | some y =>
              rw [h5] at hx2
              simp only at hx2 ⊢
              cases y with
              | obj z =>
                simp only [follow] at hx2 ⊢
                cases h6 : Dict.get? z c with
                | none => rfl
                | some u =>
                  rw [h6] at hx2
                  cases u <;> simp [follow] at hx2
              | _ => rfl
          rcases hin m2 (hg1 m2 hm2).1 _ _ hshort with ⟨hctx, _⟩ | ⟨n2, a2, hr2, _, hs2, hget2⟩
          · exact (service_ne (lamp kind) n').1 hctx
          · have hnn := same_name hs2 hget hget2
            subst hnn
            have hq2 := hr2.1
            simp only at hq2
            apply hf2
            rw [hq2, ← hq]
            simp only [follow, hfs, hget, hnone]
      · intro k v u hv hu2
        obtain ⟨i, rfl⟩ := hnum k u hu2
        have := hval k _ v hu2 hv
        cases this
        exact .same _
  · intro r hr s c hf
    obtain ⟨r', hr', rfl⟩ := List.mem_map.mp hr
    obtain ⟨g, hg1, hg2⟩ := hgr.1 r' (List.mem_filter.mp hr').1
    rcases hg2 _ hf with hb | ⟨m, hmg, hfm⟩
    · obtain ⟨h1, h2, h3⟩ := hbase _ _ hb
      exact .inl ⟨h1, h2 c rfl, h3⟩
    · rcases hin m (hg1 m hmg).1 _ _ hfm with h | ⟨n, a, hrt, ho, hsn, hget⟩
      · exact .inr (.inl h)
      · refine .inr (.inr ⟨a, ⟨n, ho, hsn.symm, mem_of_get hget⟩, ?_⟩)
        rw [hsn]
        exact hnot m (hg1 m hmg).1 n hrt (by intro hx; rw [hx] at hget; cases hget)
  · rintro r hr id rfl
    obtain ⟨r', hr', rfl⟩ := List.mem_map.mp hr
    obtain ⟨hr1, hr2⟩ := List.mem_filter.mp hr'
    obtain ⟨g, hg1, hg2⟩ := hgr.1 r' hr1
    cases r' with
    | nil => simp at hr2
    | cons p l =>
      obtain ⟨k, v⟩ := p
      have hk : follow (.obj ((k, v) :: l)) [k] ≠ none := by
        simp only [follow, Dict.get?_cons, if_true]
        cases v <;> simp [follow]
      rcases hg2 _ hk with hb | ⟨m, hmg, hfm⟩
      · exact absurd rfl ((hbase _ _ hb).2.2 id)
      · obtain ⟨n, _, hrt, _⟩ := hmod m (hg1 m hmg).1
        have hq := hrt.1
        simp only at hq
        have hne : (commands (decide (Kind.socket id = .strip)) (noArgs (.socket id)) now n).isEmpty = false := by
          cases hx : (commands (decide (Kind.socket id = .strip)) (noArgs (.socket id)) now n).isEmpty with
          | false => rfl
          | true =>
            exfalso
            apply hfm
            rw [hq, form, hx]
            rfl
        have hctx : follow (.obj m.query) ["context", "child_ids"] = some (.arr [.str id]) := by
          rw [hq, form, hne]
          rfl
        obtain ⟨x, hx, hax⟩ := partOf_follow _ _ _ _ (hg1 m hmg).2 hctx
        cases hax
        exact hx

/-! Cases. -/

example : Named (some (.str "Smart Wi-Fi Motion Sensor PIR")) true ∧ ¬ Named (some (.str "Smart Wi-Fi Light Switch")) true := by
  refine ⟨⟨_, rfl, by simp; exact ⟨"Smart Wi-Fi Motion Sensor ".toList, [], by decide⟩⟩, ?_⟩
  rintro ⟨s, hs, h⟩
  cases hs
  have := (DeviceInfo.isInfix_iff "PIR".toList "Smart Wi-Fi Light Switch".toList).mpr (h.mp rfl)
  revert this
  decide

/-- A bulb that answers everything. -/
def sampleBulb : Dev :=
  ⟨[("system", .obj [("get_sysinfo", .obj [("alias", .str "Lamp")])])], .obj [("alias", .str "Lamp")],
    (setup .bulb true none (2024, 5) []).1.map (·.2), none, 4096⟩

/-- Its environment. -/
def sampleEnv : Env := ⟨fun _ => .ok (.obj []), fun _ => [], fun _ => .ok ()⟩

example : (modularUpdate sampleEnv (base .bulb) ⟨sampleBulb, []⟩).1 = .ok () ∧
    (modularUpdate sampleEnv (base .bulb) ⟨sampleBulb, []⟩).2.sent.length = 2 := by decide +kernel
example : Asked .bulb true false (2024, 5) "smartlife.iot.common.schedule" "get_rules" (.obj []) := ⟨"schedule", rfl, rfl, by decide +kernel⟩
example : Asked (.socket "80061") true false (2024, 5) "emeter" "get_realtime" .null := ⟨"Energy", rfl, rfl, by decide +kernel⟩

end Kasa.IotSetup
