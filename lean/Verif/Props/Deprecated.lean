import Verif.Spec.Deprecated
/-!
# C95: deprecated names
-/

namespace Kasa.Deprecated
open PyM SysInfo DeprecatedSpec

section
variable {V : Type}

/-! ## Lookups -/

/-- The normal lookup finds nothing, or a property that raises `AttributeError`. -/
def Absent (found : Option (Except Exc V)) : Prop := found = none ∨ found = some (.error attributeError)

theorem lookup_absent {found : Option (Except Exc V)} (h : Absent found) (g : PyM W (Value V)) : lookup found g = g := by
  rcases h with rfl | rfl
  · rfl
  · simp [lookup]

theorem warn_bind {β : Type} (msg : String) (f : Unit → PyM W β) (w : W) : (warn msg >>= f) w = f () (w ++ [msg]) := rfl

theorem lift_eq {β : Type} (x : Except Exc β) (w : W) : (lift x : PyM W β) w = (x, w) := by cases x <;> rfl

theorem lightRange_eq (m : ModObj V) : lightRange m = limits (m.feature "color_temp") := by
  unfold lightRange
  generalize m.feature "color_temp" = x
  match x with
  | .error e => rfl
  | .ok none => rfl
  | .ok (some ⟨.error e, _⟩) => rfl
  | .ok (some ⟨.ok lo, .error e⟩) => rfl
  | .ok (some ⟨.ok lo, .ok hi⟩) => rfl

/-- The names that a module resolves itself. -/
def ownNames : List String := ["valid_temperature_range", "has_effects"] ++ lightNames.map Prod.fst ++ energyNames.map Prod.fst

/-- A name that is not deprecated in modules. -/
theorem mod_plain (d : Dev V) (n : Nat) (m : ModObj V) (a : String) (ha : a ∉ ownNames) (w : W) :
    modGetattr d (n + 1) m a w = (((m.attr a).map fun o => o.map .own).getD (.error attributeError), w) := by
  have hl : lightGetattr d m a = raise attributeError := by
    have h1 : a ≠ "valid_temperature_range" := by rintro rfl; exact ha (by decide)
    have h2 : a ≠ "has_effects" := by rintro rfl; exact ha (by decide)
    have h3 : Dict.get? lightNames a = none := by
      rw [Dict.get?_eq_none_iff]
      intro h
      exact ha (List.mem_append_left _ (List.mem_append_right _ h))
    unfold lightGetattr
    rw [if_neg h1, if_neg h2, h3]
  have he : Dict.get? energyNames a = none := by
    rw [Dict.get?_eq_none_iff]
    intro h
    exact ha (List.mem_append_right _ h)
  have hg : modGetattr d (n + 1) m a = lookup (m.attr a) (raise attributeError) := by
    rw [modGetattr, hl, he]
    cases m.kind <;> rfl
  rw [hg]
  unfold lookup
  cases m.attr a with
  | none => rfl
  | some o =>
    cases o with
    | ok v => rfl
    | error e =>
      simp only
      split
      · rename_i h; subst h; rfl
      · rfl

/-! ## Modules -/

/-- **C95, energy modules.** A deprecated name of an energy module gives what the new name gives, with one warning. -/
theorem C95_energy (d : Dev V) (n : Nat) (hn : 2 ≤ n) (m : ModObj V) (hk : m.kind = .energy) (name new : String)
    (h : (name, new) ∈ energyInstead) (habs : Absent (m.attr name)) (w : W) :
    (modGetattr d n m name w).1 = (modGetattr d n m new w).1 ∧ Warned name w (modGetattr d n m name w).2 ∧
      ∀ o, m.attr new = some o → (modGetattr d n m name w).1 = o.map .own := by
  obtain ⟨n, rfl⟩ : ∃ k, n = k + 2 := ⟨n - 2, by omega⟩
  have hrow : Dict.get? energyNames name = some new ∧ new ∉ ownNames := by
    have : ∀ row ∈ energyInstead, Dict.get? energyNames row.1 = some row.2 ∧ row.2 ∉ ownNames := by decide
    exact this _ h
  have hu : modGetattr d (n + 2) m name w = modGetattr d (n + 1) m new (w ++ [name ++ " is deprecated, use " ++ new ++ " instead"]) := by
    rw [modGetattr, lookup_absent habs, hk, hrow.1]
    rfl
  rw [hu, mod_plain d n m new hrow.2, mod_plain d (n + 1) m new hrow.2]
  refine ⟨rfl, ⟨"use " ++ new ++ " instead", ?_⟩, ?_⟩
  · simp only [String.append_assoc]
    rfl
  · intro o ho
    rw [ho]
    rfl

/-- **C95, lights.** The deprecated names of a light give what the new ones give, with one warning. -/
theorem C95_light (d : Dev V) (n : Nat) (hn : 1 ≤ n) (m : ModObj V) (hk : m.kind = .light) (w : W) :
    (∀ name a, (name, a) ∈ lightInstead → Absent (m.attr name) →
      (modGetattr d n m name w).1 = (m.feature a).map (fun f => .bool f.isSome) ∧ Warned name w (modGetattr d n m name w).2) ∧
    (Absent (m.attr "valid_temperature_range") →
      (modGetattr d n m "valid_temperature_range" w).1 = limits (m.feature "color_temp") ∧
      Warned "valid_temperature_range" w (modGetattr d n m "valid_temperature_range" w).2) ∧
    (Absent (m.attr "has_effects") → ∀ ms, d.modules = .ok (some ms) →
      (modGetattr d n m "has_effects" w).1 = .ok (.bool (Dict.get? ms "LightEffect").isSome) ∧
      Warned "has_effects" w (modGetattr d n m "has_effects" w).2) := by
  obtain ⟨n, rfl⟩ : ∃ k, n = k + 1 := ⟨n - 1, by omega⟩
  have hu : ∀ name, Absent (m.attr name) → modGetattr d (n + 1) m name = lightGetattr d m name := by
    intro name habs
    rw [modGetattr, lookup_absent habs, hk]
  refine ⟨?_, ?_, ?_⟩
  · intro name a hmem habs
    have hrow : name ≠ "valid_temperature_range" ∧ name ≠ "has_effects" ∧ Dict.get? lightNames name = some a := by
      have : ∀ row ∈ lightInstead, row.1 ≠ "valid_temperature_range" ∧ row.1 ≠ "has_effects" ∧ Dict.get? lightNames row.1 = some row.2 := by decide
      exact this _ hmem
    rw [hu name habs]
    unfold lightGetattr
    rw [if_neg hrow.1, if_neg hrow.2.1, hrow.2.2]
    simp only [warn_bind, lift_eq]
    refine ⟨rfl, "use has_feature(\"" ++ a ++ "\") instead", ?_⟩
    simp only [String.append_assoc]
    rfl
  · intro habs
    rw [hu _ habs]
    unfold lightGetattr
    rw [if_pos rfl]
    simp only [warn_bind, lift_eq, lightRange_eq]
    refine ⟨trivial, "use get_feature(\"color_temp\") minimum_value  and maximum_value instead", ?_⟩
    rw [show ("valid_temperature_range is deprecated, use get_feature(\"color_temp\") minimum_value  and maximum_value instead" : String) =
      "valid_temperature_range" ++ " is deprecated, " ++ "use get_feature(\"color_temp\") minimum_value  and maximum_value instead" by decide +kernel]
  · intro habs ms hms
    rw [hu _ habs]
    unfold lightGetattr
    rw [if_neg (by decide), if_pos rfl]
    simp only [warn_bind, lift_eq, inModules, hms]
    refine ⟨rfl, "check `Module.LightEffect in device.modules` instead", ?_⟩
    rw [show ("has_effects is deprecated, check `Module.LightEffect in device.modules` instead" : String) =
      "has_effects" ++ " is deprecated, " ++ "check `Module.LightEffect in device.modules` instead" by decide +kernel]

/-! ## Devices -/

theorem findSome_of_find {α β : Type} (f : α → Option β) (l : List α) :
    l.findSome? f = (l.find? fun a => (f a).isSome).bind f := by
  induction l with
  | nil => rfl
  | cons a l ih =>
    cases h : f a with
    | none => simp [List.findSome?, List.find?, h, ih]
    | some b => simp [List.findSome?, List.find?, h]

/-- `__getattr__` of a device, for a name that stands for an attribute of a module. -/
theorem dev_module (d : Dev V) (n : Nat) (name mod : String) (attrs : List String) (habs : Absent (d.attr name))
    (h1 : Dict.get? typeNames name = none) (h2 : Dict.get? callables name = none) (h3 : Dict.get? others name = some (some mod, attrs))
    (h4 : ∀ a ∈ attrs, a ∉ ownNames) (ms : Dict String (ModObj V)) (hms : d.modules = .ok (some ms)) (w : W) :
    devGetattr d (n + 2) name w =
      match (Dict.get? ms mod).bind fun m => attrs.findSome? m.attr with
      | some o => (o.map .own, w ++ [name ++ " is deprecated, use: Module." ++ mod ++ " in device.modules instead"])
      | none => (.error attributeError, w) := by
  rw [devGetattr, lookup_absent habs, h1]
  simp only [callable, h2, h3, replacing, modules, hms]
  cases hm : Dict.get? ms mod with
  | none => simp [Except.bind, bind, hm, pure, Except.pure, lift]; rfl
  | some m =>
    simp only [bind, Except.bind, hm, pure, Except.pure, lift, Option.bind_some]
    rw [findSome_of_find]
    cases hf : attrs.find? fun a => (m.attr a).isSome with
    | none => rfl
    | some a =>
      have ha := h4 a (List.mem_of_find?_eq_some hf)
      have hs := List.find?_some hf
      obtain ⟨o, ho⟩ := Option.isSome_iff_exists.mp hs
      have := mod_plain d n m a ha (w ++ [name ++ " is deprecated, use: Module." ++ mod ++ " in device.modules instead"])
      rw [ho] at this
      simp only [Option.bind_some, ho]
      simp only [PyM.bind, PyM.pure, warn, hm]
      exact this

/-- The same for the names that stand for a function of the light. -/
theorem dev_callable (d : Dev V) (n : Nat) (name msg : String) (habs : Absent (d.attr name))
    (h1 : Dict.get? typeNames name = none) (h2 : Dict.get? callables name = some msg) (ms : Dict String (ModObj V))
    (hms : d.modules = .ok (some ms)) (w : W) :
    devGetattr d (n + 1) name w =
      (match Dict.get? ms "Light" with | some l => call d l name | none => .error attributeError,
        w ++ [name ++ " is deprecated, use: " ++ msg ++ " instead"]) := by
  rw [devGetattr, lookup_absent habs, h1]
  simp only [callable, h2, modules, hms]
  cases hm : Dict.get? ms "Light" with
  | none =>
    simp only [bind, PyM.bind, warn, lift, pure, PyM.pure, hm]
    rfl
  | some l =>
    simp only [bind, PyM.bind, warn, lift, pure, PyM.pure, hm]
    cases call d l name <;> rfl

/-- What the model says of a row of the specification. -/
def Row (name : String) : Instead → Prop
  | .type t => Dict.get? typeNames name = some t
  | .feature a => Dict.get? typeNames name = none ∧ (Dict.get? callables name).isSome = true ∧ (name, a) ∈ lightInstead
  | .range => name = "valid_temperature_range"
  | .effects => name = "has_effects"
  | .module m attrs => Dict.get? typeNames name = none ∧ Dict.get? callables name = none ∧ Dict.get? others name = some (some m, attrs) ∧
      ∀ a ∈ attrs, a ∉ ownNames
  | .own a => Dict.get? typeNames name = none ∧ Dict.get? callables name = none ∧ Dict.get? others name = some (none, [a]) ∧ a = "modules"

instance (name : String) (i : Instead) : Decidable (Row name i) := by
  cases i <;> (unfold Row; infer_instance)

theorem rows : ∀ row ∈ insteadOf, Row row.1 row.2 := by decide +kernel

theorem call_feature (d : Dev V) (l : ModObj V) (name a : String) (h : (name, a) ∈ lightInstead) : call d l name = hasFeature l a := by
  simp only [lightInstead, List.mem_cons, List.not_mem_nil, or_false, Prod.mk.injEq] at h
  rcases h with ⟨rfl, rfl⟩ | ⟨rfl, rfl⟩ | ⟨rfl, rfl⟩ <;> rfl

theorem modules_plain (d : Dev V) (n : Nat) (w : W) :
    devGetattr d (n + 1) "modules" w = (((d.attr "modules").map fun o => o.map .own).getD (.error attributeError), w) := by
  have hg : devGetattr d (n + 1) "modules" = lookup (d.attr "modules") (raise attributeError) := by
    rw [devGetattr, show Dict.get? typeNames "modules" = none by decide]
    simp only [callable, show Dict.get? callables "modules" = none by decide, show Dict.get? others "modules" = none by decide]
    rfl
  rw [hg]
  unfold lookup
  cases d.attr "modules" with
  | none => rfl
  | some o =>
    cases o with
    | ok v => rfl
    | error e =>
      simp only
      split
      · rename_i h; subst h; rfl
      · rfl

/-- `__getattr__` of a device, for a name that stands for another one. -/
theorem dev_own (d : Dev V) (n : Nat) (name : String) (habs : Absent (d.attr name)) (h1 : Dict.get? typeNames name = none)
    (h2 : Dict.get? callables name = none) (h3 : Dict.get? others name = some (none, ["modules"])) (w : W) :
    devGetattr d (n + 2) name w =
      match d.attr "modules" with
      | some o => (o.map .own, w ++ [name ++ " is deprecated, use: modules instead"])
      | none => (.error attributeError, w) := by
  rw [devGetattr, lookup_absent habs, h1]
  simp only [callable, h2, h3, replacing]
  cases hm : d.attr "modules" with
  | none =>
    simp only [bind, PyM.bind, pure, PyM.pure, lift, List.find?, hm]
    rfl
  | some o =>
    simp only [bind, PyM.bind, pure, PyM.pure, lift, List.find?, hm, Option.isSome_some, warn]
    have := modules_plain d n (w ++ [name ++ " is deprecated, use: " ++ "modules" ++ " instead"])
    rw [hm] at this
    rw [this]
    simp only [String.append_assoc, Option.map_some, Option.getD_some]
    rfl

/-- **C95, replacements.** A deprecated name of a device, if the device does not have an attribute of that name, gives exactly what its
replacement gives, be it a value or an exception, with one warning, which names it. -/
theorem C95_replaced (d : Dev V) (n : Nat) (hn : 2 ≤ n) (ms : Dict String (ModObj V)) (hms : d.modules = .ok (some ms)) (hs : Sorted ms)
    (name : String) (i : Instead) (h : (name, i) ∈ insteadOf) (habs : Absent (d.attr name)) (o : Except Exc (Value V))
    (ho : gives d ms i = some o) (w : W) :
    (devGetattr d n name w).1 = o ∧ Warned name w (devGetattr d n name w).2 := by
  obtain ⟨n, rfl⟩ : ∃ k, n = k + 2 := ⟨n - 2, by omega⟩
  have hrow : Row name i := rows _ h
  cases i with
  | type t =>
    cases ho
    have hrow : Dict.get? typeNames name = some t := hrow
    rw [devGetattr, lookup_absent habs, hrow]
    refine ⟨rfl, "use device_type property instead", ?_⟩
    simp only [warn_bind, String.append_assoc]
    rfl
  | feature a =>
    obtain ⟨h1, h2, h3⟩ := hrow
    obtain ⟨msg, h2⟩ := Option.isSome_iff_exists.mp h2
    rw [dev_callable d (n + 1) name msg habs h1 h2 ms hms w]
    cases hl : Dict.get? ms "Light" with
    | none => simp [gives, hl] at ho
    | some l =>
      simp only [gives, hl, Option.map_some, Option.some.injEq] at ho
      subst ho
      simp only [call_feature d l name a h3]
      refine ⟨rfl, "use: " ++ msg ++ " instead", ?_⟩
      simp only [String.append_assoc]
      rfl
  | range =>
    have hname : name = "valid_temperature_range" := hrow
    subst hname
    rw [dev_callable d (n + 1) _ _ habs (by decide) (show Dict.get? callables "valid_temperature_range" =
      some "minimum and maximum value of get_feature(\"color_temp\")" by decide) ms hms w]
    cases hl : Dict.get? ms "Light" with
    | none => simp [gives, hl] at ho
    | some l =>
      simp only [gives, hl, Option.map_some, Option.some.injEq] at ho
      subst ho
      have hk := hs l hl
      have hc : call d l "valid_temperature_range" = lightRange l := by
        unfold call
        rw [if_neg (by decide), if_neg (by decide), if_neg (by decide), if_pos rfl, hk]
      simp only [hc, lightRange_eq]
      refine ⟨trivial, "use: " ++ "minimum and maximum value of get_feature(\"color_temp\")" ++ " instead", ?_⟩
      simp only [String.append_assoc]
      rfl
  | effects =>
    have hname : name = "has_effects" := hrow
    subst hname
    rw [dev_callable d (n + 1) _ _ habs (by decide) (show Dict.get? callables "has_effects" = some "Module.LightEffect in device.modules" by decide)
      ms hms w]
    cases hl : Dict.get? ms "Light" with
    | none => simp [gives, hl] at ho
    | some l =>
      simp only [gives, hl, Option.map_some, Option.some.injEq] at ho
      subst ho
      have hc : call d l "has_effects" = .ok (.bool (Dict.get? ms "LightEffect").isSome) := by
        unfold call
        rw [if_neg (by decide), if_neg (by decide), if_neg (by decide), if_neg (by decide)]
        unfold inModules
        rw [hms]
        rfl
      simp only [hc]
      refine ⟨trivial, "use: " ++ "Module.LightEffect in device.modules" ++ " instead", ?_⟩
      simp only [String.append_assoc]
      rfl
  | module mod attrs =>
    obtain ⟨h1, h2, h3, h4⟩ := hrow
    rw [dev_module d n name mod attrs habs h1 h2 h3 h4 ms hms w]
    simp only [gives] at ho
    have : ∃ x, ((Dict.get? ms mod).bind fun m => attrs.findSome? m.attr) = some x ∧ o = x.map .own := by
      cases hm : Dict.get? ms mod with
      | none => simp [hm] at ho
      | some m =>
        simp only [hm, Option.bind_some, Option.map_eq_some_iff] at ho
        obtain ⟨x, hx, rfl⟩ := ho
        exact ⟨x, hx, rfl⟩
    obtain ⟨x, hx, rfl⟩ := this
    rw [hx]
    refine ⟨rfl, "use: Module." ++ mod ++ " in device.modules instead", ?_⟩
    simp only [String.append_assoc]
    rfl
  | own a =>
    obtain ⟨h1, h2, h3, rfl⟩ := hrow
    rw [dev_own d n name habs h1 h2 h3 w]
    simp only [gives] at ho
    cases hm : d.attr "modules" with
    | none => simp [hm] at ho
    | some x =>
      simp only [hm, Option.map_some, Option.some.injEq] at ho
      subst ho
      refine ⟨rfl, "use: modules instead", ?_⟩
      simp only [String.append_assoc]
      rfl

/-- **C95, nothing to replace it.** If the replacement is not there, the device has no such attribute. -/
theorem C95_missing (d : Dev V) (n : Nat) (hn : 2 ≤ n) (ms : Dict String (ModObj V)) (hms : d.modules = .ok (some ms))
    (name : String) (i : Instead) (h : (name, i) ∈ insteadOf) (habs : Absent (d.attr name)) (ho : gives d ms i = none) (w : W) :
    (devGetattr d n name w).1 = .error attributeError := by
  obtain ⟨n, rfl⟩ : ∃ k, n = k + 2 := ⟨n - 2, by omega⟩
  have hrow : Row name i := rows _ h
  have light : ∀ (msg : String) {α : Type} (f : ModObj V → α), (Dict.get? ms "Light").map f = none → Dict.get? typeNames name = none →
      Dict.get? callables name = some msg → (devGetattr d (n + 2) name w).1 = .error attributeError := by
    intro msg α f hf h1 h2
    rw [dev_callable d (n + 1) name msg habs h1 h2 ms hms w, Option.map_eq_none_iff.mp hf]
  cases i with
  | type t => cases ho
  | feature a =>
    obtain ⟨h1, h2, h3⟩ := hrow
    obtain ⟨msg, h2⟩ := Option.isSome_iff_exists.mp h2
    exact light msg _ ho h1 h2
  | range =>
    have hname : name = "valid_temperature_range" := hrow
    subst hname
    exact light _ _ ho (by decide) (show _ = some "minimum and maximum value of get_feature(\"color_temp\")" by decide)
  | effects =>
    have hname : name = "has_effects" := hrow
    subst hname
    exact light _ _ ho (by decide) (show _ = some "Module.LightEffect in device.modules" by decide)
  | module mod attrs =>
    obtain ⟨h1, h2, h3, h4⟩ := hrow
    rw [dev_module d n name mod attrs habs h1 h2 h3 h4 ms hms w]
    have : ((Dict.get? ms mod).bind fun m => attrs.findSome? m.attr) = none := by
      simp only [gives] at ho
      cases hm : Dict.get? ms mod with
      | none => rfl
      | some m =>
        simp only [hm, Option.bind_some, Option.map_eq_none_iff] at ho
        exact ho
    rw [this]
  | own a =>
    obtain ⟨h1, h2, h3, rfl⟩ := hrow
    rw [dev_own d n name habs h1 h2 h3 w, Option.map_eq_none_iff.mp (show (d.attr "modules").map _ = none from ho)]

/-- **C95, other names.** A device looks its own attributes up as they are, and names that are neither its own nor deprecated are not there;
no warning is issued. -/
theorem C95_other_names (d : Dev V) (n : Nat) (hn : 1 ≤ n) (name : String) (w : W) :
    (∀ v, d.attr name = some (.ok v) → devGetattr d n name w = (.ok (.own v), w)) ∧
    (∀ e, d.attr name = some (.error e) → e ≠ attributeError → devGetattr d n name w = (.error e, w)) ∧
    (Absent (d.attr name) → name ≠ "_deprecated_set_light_state" → (∀ i, (name, i) ∉ insteadOf) →
      devGetattr d n name w = (.error attributeError, w)) := by
  obtain ⟨n, rfl⟩ : ∃ k, n = k + 1 := ⟨n - 1, by omega⟩
  refine ⟨?_, ?_, ?_⟩
  · intro v hv
    rw [devGetattr, hv]
    rfl
  · intro e he hne
    rw [devGetattr, he]
    simp only [lookup, hne, if_false]
    rfl
  · intro habs hname hno
    have hkeys : ∀ k ∈ typeNames.map Prod.fst ++ callables.map Prod.fst ++ others.map Prod.fst,
        k = "_deprecated_set_light_state" ∨ k ∈ insteadOf.map Prod.fst := by decide +kernel
    have hnot : name ∉ typeNames.map Prod.fst ++ callables.map Prod.fst ++ others.map Prod.fst := by
      intro h
      rcases hkeys name h with h | h
      · exact hname h
      · obtain ⟨⟨k, i⟩, hmem, rfl⟩ := List.mem_map.mp h
        exact hno i hmem
    simp only [List.mem_append, not_or] at hnot
    have h1 : Dict.get? typeNames name = none := Dict.get?_eq_none_iff.mpr hnot.1.1
    have h2 : Dict.get? callables name = none := Dict.get?_eq_none_iff.mpr hnot.1.2
    have h3 : Dict.get? others name = none := Dict.get?_eq_none_iff.mpr hnot.2
    rw [devGetattr, lookup_absent habs, h1]
    simp only [callable, h2, h3]
    rfl

/-- **C95, the old setter of the light's state.** The private name that old programs used to set the state of a light is listed as deprecated,
but its replacement is a name that lights do not have: the lookup fails on every device whose light has no attribute `has_effects`. -/
theorem C95_lost (d : Dev V) (n : Nat) (hn : 1 ≤ n) (ms : Dict String (ModObj V)) (hms : d.modules = .ok (some ms))
    (hl : ∀ l, Dict.get? ms "Light" = some l → l.attr "has_effects" = none) (habs : Absent (d.attr "_deprecated_set_light_state")) (w : W) :
    devGetattr d n "_deprecated_set_light_state" w = (.error attributeError, w) := by
  obtain ⟨n, rfl⟩ : ∃ k, n = k + 1 := ⟨n - 1, by omega⟩
  rw [devGetattr, lookup_absent habs, show Dict.get? typeNames "_deprecated_set_light_state" = none by decide]
  simp only [callable, show Dict.get? callables "_deprecated_set_light_state" = none by decide,
    show Dict.get? others "_deprecated_set_light_state" = some (some "Light", ["has_effects"]) by decide, replacing, modules, hms]
  cases hm : Dict.get? ms "Light" with
  | none =>
    simp only [bind, PyM.bind, Except.bind, lift, pure, PyM.pure, Except.pure, hm]
    rfl
  | some l =>
    simp only [bind, PyM.bind, Except.bind, lift, pure, PyM.pure, Except.pure, hm, List.find?, hl l hm, Option.isSome_none]
    rfl

/-- Looking an attribute of an object up gives a value or tells that it is not there. -/
def Quiet (attr : String → Option (Except Exc V)) : Prop := ∀ a e, attr a = some (.error e) → e = attributeError

/-- The lookup gave a value or told that there is no such attribute: `hasattr` answers. -/
def Answers (x : Except Exc (Value V)) : Prop := ∀ e, x = .error e → e = attributeError

/-- **C95, asking for a name, in part.** Asking a device for any name gives a value or tells that there is no such attribute, so `hasattr`
and `getattr` with a default work, provided that the modules are there, that no attribute of the device or of its modules raises anything else,
that the features can be looked up, and that the name is not `valid_temperature_range`.  (What is missing: see the counterexamples.) -/
theorem C95_answers_partial (d : Dev V) (n : Nat) (hn : 2 ≤ n) (ms : Dict String (ModObj V)) (hms : d.modules = .ok (some ms)) (hs : Sorted ms)
    (hd : Quiet d.attr) (hm : ∀ k m, Dict.get? ms k = some m → Quiet m.attr ∧ ∀ a e, m.feature a ≠ .error e)
    (hl : ∀ l, Dict.get? ms "Light" = some l → l.attr "has_effects" = none) (name : String) (hname : name ≠ "valid_temperature_range") (w : W) :
    Answers (devGetattr d n name w).1 := by
  intro e he
  have habs_or : Absent (d.attr name) ∨ ∃ v, d.attr name = some (.ok v) := by
    cases h : d.attr name with
    | none => exact .inl (.inl rfl)
    | some o =>
      cases o with
      | ok v => exact .inr ⟨v, rfl⟩
      | error e => exact .inl (.inr (by rw [hd name e h]))
  rcases habs_or with habs | ⟨v, hv⟩
  · by_cases hdep : ∃ i, (name, i) ∈ insteadOf
    · obtain ⟨i, hi⟩ := hdep
      cases hg : gives d ms i with
      | none =>
        rw [C95_missing d n hn ms hms name i hi habs hg w] at he
        cases he
        rfl
      | some o =>
        rw [(C95_replaced d n hn ms hms hs name i hi habs o hg w).1] at he
        subst he
        cases i with
        | type t => cases hg
        | feature a =>
          cases hx : Dict.get? ms "Light" with
          | none => simp [gives, hx] at hg
          | some l =>
            have := (hm _ _ hx).2 a
            simp only [gives, hx, Option.map_some, Option.some.injEq] at hg
            cases hf : l.feature a with
            | error e' => exact absurd hf (this e')
            | ok f => rw [hf] at hg; cases hg
        | range => exact absurd (show name = "valid_temperature_range" from rows _ hi) hname
        | effects =>
          cases hx : Dict.get? ms "Light" with
          | none => simp [gives, hx] at hg
          | some l => simp [gives, hx] at hg
        | module mod attrs =>
          cases hx : Dict.get? ms mod with
          | none => simp [gives, hx] at hg
          | some m =>
            simp only [gives, hx, Option.bind_some, Option.map_eq_some_iff] at hg
            obtain ⟨o, ho, hoe⟩ := hg
            obtain ⟨a, _, ha⟩ := List.exists_of_findSome?_eq_some ho
            cases o with
            | ok v => cases hoe
            | error e' =>
              cases hoe
              exact (hm _ _ hx).1 a _ ha
        | own a =>
          simp only [gives, Option.map_eq_some_iff] at hg
          obtain ⟨o, ho, hoe⟩ := hg
          cases o with
          | ok v => cases hoe
          | error e' =>
            cases hoe
            exact hd a _ ho
    · by_cases hlost : name = "_deprecated_set_light_state"
      · subst hlost
        rw [C95_lost d n (by omega) ms hms hl habs w] at he
        cases he
        rfl
      · rw [(C95_other_names d n (by omega) name w).2.2 habs hlost (fun i hi => hdep ⟨i, hi⟩)] at he
        cases he
        rfl
  · rw [(C95_other_names d n (by omega) name w).1 v hv] at he
    cases he

/-- **C95, the first counterexample.** On every device whose light has no colour temperature, `hasattr(device, "valid_temperature_range")`
raises `KasaException`. -/
theorem C95_answers_counterexample_range (d : Dev V) (n : Nat) (hn : 2 ≤ n) (ms : Dict String (ModObj V)) (hms : d.modules = .ok (some ms))
    (hs : Sorted ms) (l : ModObj V) (hl : Dict.get? ms "Light" = some l) (hf : l.feature "color_temp" = .ok none)
    (habs : Absent (d.attr "valid_temperature_range")) (w : W) :
    (devGetattr d n "valid_temperature_range" w).1 = .error .kasa :=
  (C95_replaced d n hn ms hms hs "valid_temperature_range" .range (by decide) habs (.error .kasa)
    (by simp only [gives, hl, Option.map_some, hf, limits]) w).1

/-- The deprecated names that need the modules. -/
def NeedsModules : Instead → Prop
  | .type _ => False
  | .own _ => False
  | _ => True

/-- **C95, the second counterexample.** On a device whose modules raise (a legacy one that was not updated), asking for any of the deprecated
names that stand for something in a module raises that exception; with `None` for modules there is no such attribute. -/
theorem C95_answers_counterexample_modules (d : Dev V) (n : Nat) (hn : 1 ≤ n) (name : String) (i : Instead) (h : (name, i) ∈ insteadOf)
    (hi : NeedsModules i) (habs : Absent (d.attr name)) (w : W) :
    (∀ e, d.modules = .error e → (devGetattr d n name w).1 = .error e) ∧
      (d.modules = .ok none → (devGetattr d n name w).1 = .error attributeError) := by
  obtain ⟨n, rfl⟩ : ∃ k, n = k + 1 := ⟨n - 1, by omega⟩
  have hcall : ∀ msg e, Dict.get? typeNames name = none → Dict.get? callables name = some msg → modules d = .error e →
      (devGetattr d (n + 1) name w).1 = .error e := by
    intro msg e h1 h2 h3
    rw [devGetattr, lookup_absent habs, h1]
    simp only [callable, h2, h3, bind, PyM.bind, warn, lift]
    rfl
  have key : ∀ e, modules d = .error e → (devGetattr d (n + 1) name w).1 = .error e := by
    intro e he
    have hrow : Row name i := rows _ h
    cases i with
    | type t => exact hi.elim
    | own a => exact hi.elim
    | feature a =>
      obtain ⟨h1, h2, _⟩ := hrow
      obtain ⟨msg, h2⟩ := Option.isSome_iff_exists.mp h2
      exact hcall msg e h1 h2 he
    | range =>
      have hname : name = "valid_temperature_range" := hrow
      subst hname
      exact hcall _ e (by decide) (show _ = some "minimum and maximum value of get_feature(\"color_temp\")" by decide) he
    | effects =>
      have hname : name = "has_effects" := hrow
      subst hname
      exact hcall _ e (by decide) (show _ = some "Module.LightEffect in device.modules" by decide) he
    | module mod attrs =>
      obtain ⟨h1, h2, h3, _⟩ := hrow
      rw [devGetattr, lookup_absent habs, h1]
      simp only [callable, h2, h3, replacing, he, bind, PyM.bind, Except.bind, pure, PyM.pure, lift]
      rfl
  refine ⟨fun e he => key e ?_, fun he => key _ ?_⟩
  · simp only [modules, he]
  · simp only [modules, he]

end

/-! ## The package -/

/-- **C95, the package.** Every deprecated name of the package gives the class that took its place, with one warning; any other name that the
package does not have is not there. -/
theorem C95_package (name : String) (w : W) :
    (∀ cls, (name, cls) ∈ packageInstead → (packageGetattr name w).1 = .ok cls ∧ Warned name w (packageGetattr name w).2) ∧
    (name ≠ "TPLinkSmartHomeProtocol" → (∀ cls, (name, cls) ∉ packageInstead) → packageGetattr name w = (.error attributeError, w)) := by
  constructor
  · intro cls h
    have hrow : ∀ row ∈ packageInstead, row.1 ≠ "TPLinkSmartHomeProtocol" ∧
        ((Dict.get? packageDevices row.1).map Prod.fst = some row.2 ∨
          (Dict.get? packageDevices row.1 = none ∧ Dict.get? packageClasses row.1 = some row.2)) := by decide +kernel
    obtain ⟨h1, h2⟩ := hrow _ h
    unfold packageGetattr
    rw [if_neg h1]
    rcases h2 with h2 | ⟨h2, h3⟩
    · obtain ⟨⟨c, package⟩, h2, rfl⟩ := Option.map_eq_some_iff.mp h2
      rw [h2]
      refine ⟨rfl, "use " ++ c ++ " from package " ++ package ++ " instead or use Discover.discover_single()" ++
        " and Device.connect() to support new protocols", ?_⟩
      simp only [warn_bind, String.append_assoc]
      rfl
    · rw [h2, h3]
      refine ⟨rfl, "use " ++ cls ++ " instead", ?_⟩
      simp only [warn_bind, String.append_assoc]
      rfl
  · intro h1 h2
    have hk : ∀ k ∈ packageDevices.map Prod.fst ++ packageClasses.map Prod.fst, k ∈ packageInstead.map Prod.fst := by decide +kernel
    have hn : name ∉ packageDevices.map Prod.fst ++ packageClasses.map Prod.fst := by
      intro h
      obtain ⟨⟨k, c⟩, hm, rfl⟩ := List.mem_map.mp (hk name h)
      exact h2 c hm
    simp only [List.mem_append, not_or] at hn
    unfold packageGetattr
    rw [if_neg h1, Dict.get?_eq_none_iff.mpr hn.1, Dict.get?_eq_none_iff.mpr hn.2]
    rfl

/-! ## The hypotheses can be met -/

/-- A light with colour temperatures from 2500 to 6500. -/
def sampleLight : ModObj Nat where
  kind := .light
  attr := fun a => if a = "brightness" then some (.ok 50) else none
  feature := fun a => .ok (if a = "color_temp" then some ⟨.ok 2500, .ok 6500⟩ else if a = "brightness" then some ⟨.ok 0, .ok 100⟩ else none)

/-- An energy module. -/
def sampleEnergy : ModObj Nat where
  kind := .energy
  attr := fun a => if a = "status" then some (.ok 7) else if a = "consumption_today" then some (.ok 3) else none
  feature := fun _ => .ok none

/-- A bulb with them. -/
def sampleBulb : Dev Nat where
  attr := fun a => if a = "alias" then some (.ok 1) else none
  deviceType := .bulb
  modules := .ok (some [("Light", sampleLight), ("Energy", sampleEnergy)])

theorem sample_sorted : Sorted [("Light", sampleLight), ("Energy", sampleEnergy)] := by
  intro l h
  cases h
  rfl

example : (devGetattr sampleBulb 2 "is_bulb" []).1 = .ok (.bool true) ∧ Warned "is_bulb" [] (devGetattr sampleBulb 2 "is_bulb" []).2 :=
  C95_replaced sampleBulb 2 (by decide) _ rfl sample_sorted "is_bulb" (.type .bulb) (by decide) (.inl rfl) _ rfl []

example : (devGetattr sampleBulb 2 "valid_temperature_range" []).1 = .ok (.range 2500 6500) :=
  (C95_replaced sampleBulb 2 (by decide) _ rfl sample_sorted "valid_temperature_range" .range (by decide) (.inl rfl) _ rfl []).1

example : (devGetattr sampleBulb 2 "brightness" []).1 = .ok (.own 50) :=
  (C95_replaced sampleBulb 2 (by decide) _ rfl sample_sorted "brightness" (.module "Light" ["brightness"]) (by decide) (.inl rfl) _ rfl []).1

example : devGetattr sampleBulb 2 "emeter_realtime" [] =
    (.ok (.own 7), ["emeter_realtime is deprecated, use: Module.Energy in device.modules instead"]) := by decide +kernel

example : (devGetattr sampleBulb 2 "hsv" []).1 = .error attributeError :=
  C95_missing sampleBulb 2 (by decide) _ rfl "hsv" (.module "Light" ["hsv"]) (by decide) (.inl rfl) rfl []

example : devGetattr sampleBulb 1 "nonsense" [] = (.error attributeError, []) :=
  (C95_other_names sampleBulb 1 (by decide) "nonsense" []).2.2 (.inl rfl) (by decide) (by
    intro i h
    have : ∀ row ∈ insteadOf, row.1 ≠ "nonsense" := by decide
    exact this _ h rfl)

example : (modGetattr sampleBulb 2 sampleEnergy "realtime" []).1 = .ok (.own 7) :=
  (C95_energy sampleBulb 2 (by decide) sampleEnergy rfl "realtime" "status" (by decide) (.inl rfl) []).2.2 _ rfl

example : (modGetattr sampleBulb 1 sampleLight "is_color" []).1 = .ok (.bool false) :=
  ((C95_light sampleBulb 1 (by decide) sampleLight rfl []).1 "is_color" "hsv" (by decide) (.inl rfl)).1

example : devGetattr sampleBulb 1 "_deprecated_set_light_state" [] = (.error attributeError, []) :=
  C95_lost sampleBulb 1 (by decide) _ rfl (by intro l h; cases h; rfl) (.inl rfl) []

/-- A light that cannot change its colour temperature. -/
def plainBulb : Dev Nat where
  attr := fun _ => none
  deviceType := .bulb
  modules := .ok (some [("Light", { sampleLight with feature := fun _ => .ok none })])

example : (devGetattr plainBulb 2 "valid_temperature_range" []).1 = .error .kasa :=
  C95_answers_counterexample_range plainBulb 2 (by decide) _ rfl (by intro l h; cases h; rfl) _ rfl rfl (.inl rfl) []

/-- A legacy device that was not updated. -/
def freshBulb : Dev Nat where
  attr := fun _ => none
  deviceType := .bulb
  modules := .error .kasa

example : (devGetattr freshBulb 2 "brightness" []).1 = .error .kasa :=
  (C95_answers_counterexample_modules freshBulb 2 (by decide) "brightness" (.module "Light" ["brightness"]) (by decide) trivial (.inl rfl) []).1 _ rfl

example : Answers (devGetattr sampleBulb 2 "led" []).1 := by
  refine C95_answers_partial sampleBulb 2 (by decide) _ rfl sample_sorted ?_ ?_ ?_ "led" (by decide) []
  · intro a e h
    simp only [sampleBulb] at h
    split at h <;> cases h
  · intro k m h
    have : m = sampleLight ∨ m = sampleEnergy := by
      rw [Dict.get?_cons] at h
      split at h
      · cases h; exact .inl rfl
      · rw [Dict.get?_cons] at h
        split at h
        · cases h; exact .inr rfl
        · cases h
    rcases this with rfl | rfl
    · refine ⟨?_, fun a e h => nomatch h⟩
      intro a e h
      simp only [sampleLight] at h
      split at h <;> cases h
    · refine ⟨?_, fun a e h => nomatch h⟩
      intro a e h
      simp only [sampleEnergy] at h
      repeat' split at h
      all_goals cases h
  · intro l h
    cases h
    rfl

example : (packageGetattr "SmartPlug" []).1 = .ok "IotPlug" := ((C95_package "SmartPlug" []).1 "IotPlug" (by decide)).1

end Kasa.Deprecated
