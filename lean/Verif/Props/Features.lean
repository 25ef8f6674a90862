import Verif.Spec.Features
import Verif.Props.Feature
/-!
# C77: every feature is there, under its own id and name
-/

namespace Kasa.Features
open PyM

/-- The features a class registers. -/
def rowsOf (steps : List Step) (f : Facts) : List Row :=
  steps.filterMap fun | .read => none | .row r => if r.cond f then some r else none

def ids (l : List Row) : List String := l.map Row.id

/-- All features of a class, whatever the facts. -/
def allRows (steps : List Step) : List Row := steps.filterMap fun | .read => none | .row r => some r

theorem mem_rowsOf {steps : List Step} {f : Facts} {r : Row} : r ∈ rowsOf steps f ↔ Step.row r ∈ steps ∧ r.cond f = true := by
  unfold rowsOf
  rw [List.mem_filterMap]
  constructor
  · rintro ⟨s, hs, h⟩
    cases s with
    | read => cases h
    | row r' =>
      simp only at h
      split at h
      · next hc => cases h; exact ⟨hs, hc⟩
      · cases h
  · rintro ⟨h, hc⟩
    exact ⟨_, h, by simp [hc]⟩

theorem mem_allRows {steps : List Step} {r : Row} : r ∈ allRows steps ↔ Step.row r ∈ steps := by
  unfold allRows
  rw [List.mem_filterMap]
  constructor
  · rintro ⟨s, hs, h⟩
    cases s with
    | read => cases h
    | row r' => cases h; exact hs
  · intro h
    exact ⟨_, h, rfl⟩

theorem rowsOf_sublist (steps : List Step) (f : Facts) : (rowsOf steps f).Sublist (allRows steps) := by
  induction steps with
  | nil => exact List.Sublist.slnil
  | cons s steps ih =>
    cases s with
    | read => exact ih
    | row r =>
      by_cases hc : r.cond f
      · simpa [rowsOf, allRows, hc] using ih
      · simp only [rowsOf, allRows, List.filterMap_cons, hc] at ih ⊢
        exact List.Sublist.cons _ ih

theorem forEach_nil' {S ι : Type} (g : ι → PyM S Unit) (s : S) : forEach g [] s = (.ok (), s) := rfl

theorem forEach_cons' {S ι : Type} (g : ι → PyM S Unit) (x : ι) (xs : List ι) (s : S) :
    forEach g (x :: xs) s = match g x s with | (.ok _, s') => forEach g xs s' | (.error e, s') => (.error e, s') := by
  rw [forEach, PyM.bind]
  rcases g x s with ⟨o, s'⟩
  cases o <;> rfl

/-- Registering features with the device: all of them if no id comes twice, otherwise an exception. -/
theorem deviceAdd_all (rows : List Row) (s : St) (hs : (ids s.features).Nodup) :
    ((ids (s.features ++ rows)).Nodup → forEach deviceAdd rows s = (.ok (), { s with features := s.features ++ rows })) ∧
    (¬(ids (s.features ++ rows)).Nodup → (forEach deviceAdd rows s).1 = .error .kasa) := by
  induction rows generalizing s with
  | nil =>
    constructor
    · intro _; simp [forEach_nil']
    · intro h; simp at h; exact absurd hs h
  | cons r rows ih =>
    rw [forEach_cons']
    by_cases hr : s.features.any (fun x => x.id == r.id)
    · have hd : deviceAdd r s = (.error .kasa, s) := by unfold deviceAdd; rw [if_pos hr]
      rw [hd]
      refine ⟨fun h => ?_, fun _ => rfl⟩
      obtain ⟨x, hx, he⟩ := List.any_eq_true.1 hr
      have he : x.id = r.id := by simpa using he
      unfold ids at h
      rw [List.map_append, List.nodup_append] at h
      exact absurd he (h.2.2 x.id (List.mem_map_of_mem hx) r.id (by simp))
    · have hd : deviceAdd r s = (.ok (), { s with features := s.features ++ [r] }) := by unfold deviceAdd; rw [if_neg hr]
      rw [hd]
      have hn : (ids (s.features ++ [r])).Nodup := by
        unfold ids at hs ⊢
        rw [List.map_append, List.nodup_append]
        refine ⟨hs, by simp, ?_⟩
        intro a ha b hb hab
        obtain ⟨x, hx, rfl⟩ := List.mem_map.1 ha
        simp at hb
        subst hb
        exact hr (List.any_eq_true.2 ⟨x, hx, by simpa using hab⟩)
      have := ih { s with features := s.features ++ [r] } hn
      simpa [List.append_assoc] using this

theorem St.of_set (s : St) (name n : String) (l : List Row) (fs : List Row) :
    (⟨fs, Dict.set s.modules name l⟩ : St).of n = if n = name then l else s.of n := by
  unfold St.of
  rw [Dict.get?_set]
  by_cases h : n = name
  · simp [h]
  · have : ¬name = n := fun h' => h h'.symm
    simp [h, this]

/-- Registering features with their module. -/
theorem module_all (name : String) (f : Facts) (steps : List Step) (s : St) (hr : Step.read ∈ steps → f.data name = none)
    (hn : (ids (s.of name ++ rowsOf steps f)).Nodup) :
    ∃ s', forEach (moduleStep name f) steps s = (.ok (), s') ∧ s'.features = s.features ∧ s'.of name = s.of name ++ rowsOf steps f ∧
      ∀ n, n ≠ name → s'.of n = s.of n := by
  induction steps generalizing s with
  | nil => exact ⟨s, rfl, rfl, by simp [rowsOf], fun _ _ => rfl⟩
  | cons st steps ih =>
    rw [forEach_cons']
    cases st with
    | read =>
      have : moduleStep name f .read s = (.ok (), s) := by
        unfold moduleStep
        rw [hr (.head _)]
        rfl
      rw [this]
      exact ih s (fun h => hr (.tail _ h)) hn
    | row r =>
      by_cases hc : r.cond f
      · have hrows : rowsOf (.row r :: steps) f = r :: rowsOf steps f := by simp [rowsOf, hc]
        rw [hrows] at hn ⊢
        have hno : (s.of name).any (fun x => x.id == r.id) = false := by
          rw [List.any_eq_false]
          intro x hx he
          have he : x.id = r.id := by simpa using he
          unfold ids at hn
          rw [List.map_append, List.nodup_append] at hn
          exact hn.2.2 x.id (List.mem_map_of_mem hx) r.id (by simp) he
        have hstep : moduleStep name f (.row r) s = (.ok (), { s with modules := Dict.set s.modules name (s.of name ++ [r]) }) := by
          simp [moduleStep, moduleAdd, hc, hno]
        rw [hstep]
        have hof : ({ s with modules := Dict.set s.modules name (s.of name ++ [r]) } : St).of name = s.of name ++ [r] := by
          rw [St.of_set]; simp
        obtain ⟨s', h1, h2, h3, h4⟩ := ih { s with modules := Dict.set s.modules name (s.of name ++ [r]) } (fun h => hr (.tail _ h))
          (by rw [hof]; simpa [List.append_assoc] using hn)
        refine ⟨s', h1, h2, by rw [h3, hof]; simp, fun n hne => ?_⟩
        rw [h4 n hne, St.of_set, if_neg hne]
      · have hrows : rowsOf (.row r :: steps) f = rowsOf steps f := by simp [rowsOf, hc]
        rw [hrows] at hn ⊢
        have hstep : moduleStep name f (.row r) s = (.ok (), s) := by
          unfold moduleStep
          simp only [hc]
          rfl
        rw [hstep]
        exact ih s (fun h => hr (.tail _ h)) hn

theorem own_all (own : List Step) (f : Facts) (s : St) (hs : (ids s.features).Nodup) :
    ((ids (s.features ++ rowsOf own f)).Nodup → forEach (ownStep f) own s = (.ok (), { s with features := s.features ++ rowsOf own f })) ∧
    (¬(ids (s.features ++ rowsOf own f)).Nodup → (forEach (ownStep f) own s).1 = .error .kasa) := by
  have : ∀ s, forEach (ownStep f) own s = forEach deviceAdd (rowsOf own f) s := by
    induction own with
    | nil => intro s; rfl
    | cons st own ih =>
      intro s
      rw [forEach_cons']
      cases st with
      | read => exact ih s
      | row r =>
        by_cases hc : r.cond f
        · have hrows : rowsOf (.row r :: own) f = r :: rowsOf own f := by simp [rowsOf, hc]
          rw [hrows, forEach_cons']
          have : ownStep f (.row r) s = deviceAdd r s := by unfold ownStep; simp [hc]
          rw [this]
          split
          · exact ih _
          · rfl
        · have hrows : rowsOf (.row r :: own) f = rowsOf own f := by simp [rowsOf, hc]
          have : ownStep f (.row r) s = (.ok (), s) := by unfold ownStep; simp only [hc]; rfl
          rw [hrows, this]
          exact ih s
  rw [this]
  exact deviceAdd_all _ s hs

/-- The modules one after the other. -/
theorem modules_all (f : Facts) (mods : List Class) (hmods : (mods.map Class.name).Nodup) (hread : Readable mods f)
    (hrows : ∀ c ∈ mods, (ids (rowsOf c.steps f)).Nodup) (s : St) (hof : ∀ c ∈ mods, s.of c.name = []) (hs : (ids s.features).Nodup) :
    ((ids (s.features ++ mods.flatMap fun c => rowsOf c.steps f)).Nodup →
      ∃ s', forEach (addModule f) mods s = (.ok (), s') ∧ (s'.features = s.features ++ mods.flatMap fun c => rowsOf c.steps f) ∧
        ∀ n, n ∉ mods.map Class.name → s'.of n = s.of n) ∧
    (¬(ids (s.features ++ mods.flatMap fun c => rowsOf c.steps f)).Nodup → (forEach (addModule f) mods s).1 = .error .kasa) := by
  induction mods generalizing s with
  | nil =>
    constructor
    · intro _; exact ⟨s, rfl, by simp, fun _ _ => rfl⟩
    · intro h; simp at h; exact absurd hs h
  | cons c mods ih =>
    simp only [List.map_cons, List.nodup_cons] at hmods
    obtain ⟨s1, h1, h2, h3, h4⟩ := module_all c.name f c.steps s (fun h => hread c (.head _) h)
      (by rw [hof c (.head _)]; simpa using hrows c (.head _))
    rw [hof c (.head _), List.nil_append] at h3
    have hadd : addModule f c s = forEach deviceAdd (rowsOf c.steps f) s1 := by
      unfold addModule
      simp only [bind_apply, h1, get_apply, h3]
    rw [forEach_cons', hadd]
    have hd := deviceAdd_all (rowsOf c.steps f) s1 (by rw [h2]; exact hs)
    rw [h2] at hd
    by_cases hn : (ids (s.features ++ rowsOf c.steps f)).Nodup
    · rw [hd.1 hn]
      have hrest := ih hmods.2 (fun c' hc' => hread c' (.tail _ hc')) (fun c' hc' => hrows c' (.tail _ hc'))
        { s1 with features := s.features ++ rowsOf c.steps f }
        (fun c' hc' => by
          have hne : c'.name ≠ c.name := fun h => hmods.1 (h ▸ List.mem_map_of_mem hc')
          have : ({ s1 with features := s.features ++ rowsOf c.steps f } : St).of c'.name = s1.of c'.name := rfl
          rw [this, h4 _ hne, hof c' (.tail _ hc')]) hn
      rw [List.flatMap_cons, ← List.append_assoc]
      refine ⟨fun h => ?_, hrest.2⟩
      obtain ⟨s', g1, g2, g3⟩ := hrest.1 h
      refine ⟨s', g1, g2, fun n hnn => ?_⟩
      simp only [List.map_cons, List.mem_cons, not_or] at hnn
      rw [g3 n hnn.2, ← h4 n hnn.1]
      rfl
    · have hbad : ¬(ids (s.features ++ (c :: mods).flatMap fun c => rowsOf c.steps f)).Nodup := by
        intro h
        apply hn
        unfold ids at h ⊢
        rw [List.flatMap_cons, ← List.append_assoc, List.map_append] at h
        exact (List.nodup_append.1 h).1
      refine ⟨fun h => absurd h hbad, fun _ => ?_⟩
      have := hd.2 hn
      revert this
      cases forEach deviceAdd (rowsOf c.steps f) s1 with
      | mk o s2 =>
        intro this
        simp only at this
        subst this
        rfl

/-- The features a device of known modules would have. -/
def offered (own : List Step) (mods : List Class) (f : Facts) : List Row := rowsOf own f ++ mods.flatMap fun c => rowsOf c.steps f

theorem mem_offered {own : List Step} {mods : List Class} {f : Facts} {r : Row} : r ∈ offered own mods f ↔ Offered own mods f r := by
  unfold offered Offered
  simp only [List.mem_append, List.mem_flatMap, mem_rowsOf]
  grind

/-- Initialising the features: all of them if no id comes twice, otherwise an exception. -/
theorem init_all (own : List Step) (mods : List Class) (f : Facts) (hmods : (mods.map Class.name).Nodup) (hread : Readable mods f)
    (hrows : ∀ c ∈ mods, (ids (rowsOf c.steps f)).Nodup) :
    ((ids (offered own mods f)).Nodup → ∃ s', initFeatures own mods f fresh = (.ok (), s') ∧ s'.features = offered own mods f ∧
      ∀ n, n ∉ mods.map Class.name → s'.of n = []) ∧
    (¬(ids (offered own mods f)).Nodup → (initFeatures own mods f fresh).1 = .error .kasa) := by
  have ho := own_all own f fresh (by simp [fresh, ids])
  simp only [fresh, List.nil_append] at ho
  unfold initFeatures offered fresh
  simp only [bind_apply]
  by_cases hn : (ids (rowsOf own f)).Nodup
  · rw [ho.1 hn]
    exact modules_all f mods hmods hread hrows ⟨rowsOf own f, []⟩ (fun _ _ => rfl) hn
  · have hbad : ¬(ids (rowsOf own f ++ mods.flatMap fun c => rowsOf c.steps f)).Nodup := by
      intro h
      apply hn
      unfold ids at h ⊢
      rw [List.map_append] at h
      exact (List.nodup_append.1 h).1
    refine ⟨fun h => absurd h hbad, fun _ => ?_⟩
    have := ho.2 hn
    revert this
    cases forEach (ownStep f) own ⟨[], []⟩ with
    | mk o s2 =>
      intro this
      simp only at this
      subst this
      rfl

/-- When no id comes twice among the offered features. -/
theorem nodup_offered (own : List Step) (mods : List Class) (f : Facts) : (ids (offered own mods f)).Nodup ↔
    (ids (rowsOf own f)).Nodup ∧ (∀ c ∈ mods, (ids (rowsOf c.steps f)).Nodup) ∧
    (∀ c ∈ mods, ∀ a ∈ rowsOf own f, ∀ b ∈ rowsOf c.steps f, a.id ≠ b.id) ∧
    mods.Pairwise fun c d => ∀ a ∈ rowsOf c.steps f, ∀ b ∈ rowsOf d.steps f, a.id ≠ b.id := by
  unfold offered ids
  rw [List.map_append, List.nodup_append, List.map_flatMap]
  unfold List.Nodup
  rw [List.pairwise_flatMap]
  simp only [List.mem_map, List.mem_flatMap]
  grind

theorem nodup_rows {known mods : List Class} (h : Modules known mods) (f : Facts) (hk : ∀ c ∈ known, (ids (allRows c.steps)).Nodup)
    (c : Class) (hc : c ∈ mods) : (ids (rowsOf c.steps f)).Nodup :=
  (hk c (h.1 c hc)).sublist ((rowsOf_sublist c.steps f).map Row.id)

theorem pairwise_of {known mods : List Class} (h : Modules known mods) {P : Class → Class → Prop}
    (hp : ∀ c ∈ mods, ∀ d ∈ mods, c.name ≠ d.name → P c d) : mods.Pairwise P := by
  have := h.2
  unfold List.Nodup at this
  rw [List.pairwise_map] at this
  exact List.Pairwise.imp_of_mem (fun hc hd hne => hp _ hc _ hd hne) this

/-! ## Newer devices -/

theorem smart_rows : ∀ c ∈ smartClasses, (ids (allRows c.steps)).Nodup := by decide +kernel

theorem smart_own_rows : (ids (allRows smartOwn)).Nodup := by decide +kernel

set_option synthInstance.maxSize 1000 in
set_option synthInstance.maxHeartbeats 200000 in
/-- The ids that come twice in the table. -/
theorem smart_table : ∀ c ∈ smartClasses, ∀ d ∈ smartClasses, c.name ≠ d.name → ∀ a ∈ allRows c.steps, ∀ b ∈ allRows d.steps, a.id = b.id →
    (c.name = "ChildLock" ∧ d.name = "ChildProtection" ∨ c.name = "ChildProtection" ∧ d.name = "ChildLock") ∨
    (c.name = "Clean" ∧ d.name = "BatterySensor" ∧ b.id = "battery_level" ∨ c.name = "BatterySensor" ∧ d.name = "Clean" ∧ a.id = "battery_level") := by
  decide +kernel

theorem smart_own_table : ∀ d ∈ smartClasses, ∀ a ∈ allRows smartOwn, ∀ b ∈ allRows d.steps, a.id = b.id →
    d.name = "TemperatureControl" ∧ a.id = "state" := by
  decide +kernel

theorem smart_steps : ∀ c ∈ smartClasses, (c.name = "ChildLock" → c.steps = smartChildLockSteps) ∧
    (c.name = "ChildProtection" → c.steps = smartChildProtectionSteps) ∧ (c.name = "Clean" → c.steps = smartCleanSteps) ∧
    (c.name = "BatterySensor" → c.steps = smartBatterySensorSteps) ∧ (c.name = "TemperatureControl" → c.steps = smartTemperatureControlSteps) ∧
    (c.name = "Alarm" → c.steps = smartAlarmSteps) := by
  intro c hc
  simp only [smartClasses, List.mem_cons, List.not_mem_nil, or_false] at hc
  rcases hc with h | h | h | h | h | h | h | h | h | h | h | h | h | h | h | h | h | h | h | h | h | h | h | h | h | h | h | h | h | h | h | h |
      h | h | h | h | h | h | h | h | h | h <;> subst h <;> simp

theorem row_child_lock (f : Facts) : ∀ steps ∈ [smartChildLockSteps, smartChildProtectionSteps], ∃ r ∈ rowsOf steps f, r.id = "child_lock" := by
  intro steps hs
  simp only [List.mem_cons, List.not_mem_nil, or_false] at hs
  rcases hs with rfl | rfl <;> exact ⟨_, .head _, rfl⟩

theorem row_state (f : Facts) : ∃ r ∈ rowsOf smartTemperatureControlSteps f, r.id = "state" := ⟨_, .tail _ (.tail _ (.head _)), rfl⟩

theorem row_clean (f : Facts) : ∃ r ∈ rowsOf smartCleanSteps f, r.id = "battery_level" :=
  ⟨_, .tail _ (.tail _ (.tail _ (.tail _ (.tail _ (.head _))))), rfl⟩

theorem row_battery (f : Facts) (h : f.has "battery_percentage" = true) : ∃ r ∈ rowsOf smartBatterySensorSteps f, r.id = "battery_level" :=
  ⟨_, mem_rowsOf.2 ⟨.tail _ (.head _), h⟩, rfl⟩

theorem battery_cond (f : Facts) (r : Row) (hr : r ∈ rowsOf smartBatterySensorSteps f) (hi : r.id = "battery_level") :
    f.has "battery_percentage" = true := by
  obtain ⟨hm, hc⟩ := mem_rowsOf.1 hr
  simp only [smartBatterySensorSteps, List.mem_cons, List.not_mem_nil, or_false, Step.row.injEq] at hm
  rcases hm with rfl | rfl
  · exact absurd hi (by decide)
  · exact hc

theorem own_state (f : Facts) (r : Row) (hr : r ∈ rowsOf smartOwn f) (hi : r.id = "state") : f.has "device_on" = true := by
  obtain ⟨hm, hc⟩ := mem_rowsOf.1 hr
  simp only [smartOwn, List.mem_cons, List.not_mem_nil, or_false, Step.row.injEq] at hm
  rcases hm with rfl | rfl | rfl | rfl | rfl | rfl | rfl | rfl
  · exact absurd hi (by decide)
  · exact hc
  all_goals exact absurd hi (by decide)

theorem has_iff {mods : List Class} {name : String} : Has mods name ↔ ∃ c ∈ mods, c.name = name := by
  unfold Has
  rw [List.mem_map]

/-- Two different modules with features of the same id. -/
theorem not_pairwise {mods : List Class} {f : Facts} {c d : Class} (hc : c ∈ mods) (hd : d ∈ mods) (hne : c ≠ d) {a b : Row}
    (ha : a ∈ rowsOf c.steps f) (hb : b ∈ rowsOf d.steps f) (hab : a.id = b.id) :
    ¬mods.Pairwise fun c d => ∀ a ∈ rowsOf c.steps f, ∀ b ∈ rowsOf d.steps f, a.id ≠ b.id := by
  intro h
  have := List.Pairwise.forall_of_forall_of_flip (R := fun c d => c ≠ d → ∀ a ∈ rowsOf c.steps f, ∀ b ∈ rowsOf d.steps f, a.id ≠ b.id)
    (l := mods) (fun x _ hx => absurd rfl hx) (h.imp (by intro c d h _; exact h))
    (h.imp (by intro c d h _ a ha b hb he; exact h b hb a ha he.symm)) hc hd hne
  exact this a ha b hb hab

/-- The ids of a newer device are distinct unless there is a clash. -/
theorem smart_nodup {mods : List Class} (hm : Modules smartClasses mods) (f : Facts) :
    (ids (offered smartOwn mods f)).Nodup ↔ ¬Clash mods f := by
  rw [nodup_offered]
  constructor
  · rintro ⟨_, _, hown, hpair⟩ hclash
    rcases hclash with ⟨h1, h2⟩ | ⟨h1, h2⟩ | ⟨h1, h2, h3⟩
    · obtain ⟨c, hc, hcn⟩ := has_iff.1 h1
      obtain ⟨d, hd, hdn⟩ := has_iff.1 h2
      have hcs := (smart_steps c (hm.1 c hc)).1 hcn
      have hds := (smart_steps d (hm.1 d hd)).2.1 hdn
      obtain ⟨a, ha, hai⟩ := row_child_lock f _ (by rw [← hcs]; exact .head _)
      obtain ⟨b, hb, hbi⟩ := row_child_lock f _ (.tail _ (.head _))
      exact not_pairwise hc hd (by rintro rfl; rw [hcn] at hdn; exact absurd hdn (by decide)) (hcs ▸ ha) (hds ▸ hb) (hai.trans hbi.symm) hpair
    · obtain ⟨c, hc, hcn⟩ := has_iff.1 h1
      have hcs := (smart_steps c (hm.1 c hc)).2.2.2.2.1 hcn
      obtain ⟨b, hb, hbi⟩ := row_state f
      exact hown c hc _ (mem_rowsOf.2 ⟨.tail _ (.head _), h2⟩) b (hcs ▸ hb) hbi.symm
    · obtain ⟨c, hc, hcn⟩ := has_iff.1 h1
      obtain ⟨d, hd, hdn⟩ := has_iff.1 h2
      have hcs := (smart_steps c (hm.1 c hc)).2.2.1 hcn
      have hds := (smart_steps d (hm.1 d hd)).2.2.2.1 hdn
      obtain ⟨a, ha, hai⟩ := row_clean f
      obtain ⟨b, hb, hbi⟩ := row_battery f h3
      exact not_pairwise hc hd (by rintro rfl; rw [hcn] at hdn; exact absurd hdn (by decide)) (hcs ▸ ha) (hds ▸ hb) (hai.trans hbi.symm) hpair
  · intro hno
    refine ⟨smart_own_rows.sublist ((rowsOf_sublist _ f).map Row.id), nodup_rows hm f smart_rows, ?_, ?_⟩
    · intro c hc a ha b hb hab
      obtain ⟨hn, hi⟩ := smart_own_table c (hm.1 c hc) a (mem_allRows.2 (mem_rowsOf.1 ha).1) b (mem_allRows.2 (mem_rowsOf.1 hb).1) hab
      refine hno (.inr (.inl ⟨has_iff.2 ⟨c, hc, hn⟩, ?_⟩))
      exact own_state f a ha hi
    · refine pairwise_of hm fun c hc d hd hne a ha b hb hab => hno ?_
      rcases smart_table c (hm.1 c hc) d (hm.1 d hd) hne a (mem_allRows.2 (mem_rowsOf.1 ha).1) b (mem_allRows.2 (mem_rowsOf.1 hb).1) hab with
        (⟨h1, h2⟩ | ⟨h1, h2⟩) | (⟨h1, h2, h3⟩ | ⟨h1, h2, h3⟩)
      · exact .inl ⟨has_iff.2 ⟨c, hc, h1⟩, has_iff.2 ⟨d, hd, h2⟩⟩
      · exact .inl ⟨has_iff.2 ⟨d, hd, h2⟩, has_iff.2 ⟨c, hc, h1⟩⟩
      · exact .inr (.inr ⟨has_iff.2 ⟨c, hc, h1⟩, has_iff.2 ⟨d, hd, h2⟩, battery_cond f b ((smart_steps d (hm.1 d hd)).2.2.2.1 h2 ▸ hb) h3⟩)
      · exact .inr (.inr ⟨has_iff.2 ⟨d, hd, h2⟩, has_iff.2 ⟨c, hc, h1⟩, battery_cond f a ((smart_steps c (hm.1 c hc)).2.2.2.1 h1 ▸ ha) h3⟩)

/-- C77. On a newer device every feature that the device and its modules offer is registered, each under its own id, unless two of
them have the same id: that is the case for a child lock next to child protection, for a thermostat that reports `device_on`, and
for a vacuum cleaner with a battery sensor that reports its percentage.  Then the update raises. -/
theorem C77_smart_partial (mods : List Class) (f : Facts) (hm : Modules smartClasses mods) (hr : Readable mods f) :
    (¬Clash mods f → ∃ s, ensure smartOwn mods f fresh = (.ok (), s) ∧ (∀ r, r ∈ s.features ↔ Offered smartOwn mods f r) ∧
      (s.features.map Row.id).Nodup) ∧
    (Clash mods f → (ensure smartOwn mods f fresh).1 = .error .kasa) := by
  have h := init_all smartOwn mods f hm.2 hr (nodup_rows hm f smart_rows)
  have he : ensure smartOwn mods f fresh = initFeatures smartOwn mods f fresh := rfl
  rw [smart_nodup hm f] at h
  rw [he]
  refine ⟨fun hno => ?_, fun hc => h.2 fun hn => hn hc⟩
  obtain ⟨s, h1, h2, _⟩ := h.1 hno
  refine ⟨s, h1, fun r => by rw [h2, mem_offered], ?_⟩
  rw [h2]
  exact (smart_nodup hm f).2 hno

/-! ## Legacy devices and cameras -/

theorem iot_rows : ∀ c ∈ iotClasses, (ids (allRows c.steps)).Nodup := by decide +kernel

theorem iot_own_rows : ∀ own ∈ [iotOwn, plugOwn], (ids (allRows own)).Nodup := by decide +kernel

theorem iot_table : ∀ c ∈ iotClasses, ∀ d ∈ iotClasses, c.name ≠ d.name → ∀ a ∈ allRows c.steps, ∀ b ∈ allRows d.steps, a.id ≠ b.id := by
  decide +kernel

theorem iot_own_table : ∀ own ∈ [iotOwn, plugOwn], ∀ d ∈ iotClasses, ∀ a ∈ allRows own, ∀ b ∈ allRows d.steps, a.id ≠ b.id := by
  decide +kernel

theorem cam_rows : ∀ c ∈ camClasses, (ids (allRows c.steps)).Nodup := by decide +kernel

theorem cam_table : ∀ c ∈ camClasses, ∀ d ∈ camClasses, c.name ≠ d.name → ∀ a ∈ allRows c.steps, ∀ b ∈ allRows d.steps, a.id ≠ b.id := by
  decide +kernel

/-- No ids come twice if none do in the tables. -/
theorem nodup_of_tables {own : List Step} {known mods : List Class} (hm : Modules known mods) (f : Facts)
    (h1 : (ids (allRows own)).Nodup) (h2 : ∀ c ∈ known, (ids (allRows c.steps)).Nodup)
    (h3 : ∀ d ∈ known, ∀ a ∈ allRows own, ∀ b ∈ allRows d.steps, a.id ≠ b.id)
    (h4 : ∀ c ∈ known, ∀ d ∈ known, c.name ≠ d.name → ∀ a ∈ allRows c.steps, ∀ b ∈ allRows d.steps, a.id ≠ b.id) :
    (ids (offered own mods f)).Nodup := by
  rw [nodup_offered]
  refine ⟨h1.sublist ((rowsOf_sublist _ f).map Row.id), nodup_rows hm f h2, ?_, ?_⟩
  · intro c hc a ha b hb
    exact h3 c (hm.1 c hc) a (mem_allRows.2 (mem_rowsOf.1 ha).1) b (mem_allRows.2 (mem_rowsOf.1 hb).1)
  · refine pairwise_of hm fun c hc d hd hne a ha b hb => ?_
    exact h4 c (hm.1 c hc) d (hm.1 d hd) hne a (mem_allRows.2 (mem_rowsOf.1 ha).1) b (mem_allRows.2 (mem_rowsOf.1 hb).1)

theorem ensure_of_nodup {own : List Step} {mods : List Class} {f : Facts} (hm : (mods.map Class.name).Nodup) (hr : Readable mods f)
    (hn : (ids (offered own mods f)).Nodup) :
    ∃ s, ensure own mods f fresh = (.ok (), s) ∧ (∀ r, r ∈ s.features ↔ Offered own mods f r) ∧ (s.features.map Row.id).Nodup := by
  obtain ⟨s, h1, h2, _⟩ := (init_all own mods f hm hr ((nodup_offered own mods f).1 hn).2.1).1 hn
  exact ⟨s, h1, fun r => by rw [h2, mem_offered], by rw [h2]; exact hn⟩

/-- C77. On a legacy device, and on the plug of a legacy strip, every feature is registered under its own id. -/
theorem C77_legacy (own : List Step) (ho : own = iotOwn ∨ own = plugOwn) (mods : List Class) (f : Facts) (hm : Modules iotClasses mods)
    (hr : Readable mods f) :
    ∃ s, ensure own mods f fresh = (.ok (), s) ∧ (∀ r, r ∈ s.features ↔ Offered own mods f r) ∧ (s.features.map Row.id).Nodup := by
  have ho : own ∈ [iotOwn, plugOwn] := by
    rcases ho with rfl | rfl
    · exact .head _
    · exact .tail _ (.head _)
  exact ensure_of_nodup hm.2 hr (nodup_of_tables hm f (iot_own_rows own ho) iot_rows (iot_own_table own ho) iot_table)

/-- C77. On a camera every feature is registered under its own id. -/
theorem C77_camera (mods : List Class) (f : Facts) (hm : Modules camClasses mods) (hr : Readable mods f) :
    ∃ s, ensure [] mods f fresh = (.ok (), s) ∧ (∀ r, r ∈ s.features ↔ Offered [] mods f r) ∧ (s.features.map Row.id).Nodup :=
  ensure_of_nodup hm.2 hr (nodup_of_tables hm f (by decide) cam_rows (fun _ _ _ ha => absurd ha (by simp [allRows])) cam_table)

/-! ## When the features cannot be initialised -/

theorem ensure_again {own : List Step} {mods : List Class} {s : St} (h : s.features ≠ []) (f : Facts) : ensure own mods f s = (.ok (), s) := by
  unfold ensure
  cases hs : s.features with
  | nil => exact absurd hs h
  | cons _ _ => rfl

theorem updates_again {own : List Step} {mods : List Class} {s : St} (h : s.features ≠ []) (fs : List Facts) :
    updates own mods fs s = (fs.map fun _ => .ok (), s) := by
  induction fs with
  | nil => rfl
  | cons f fs ih => simp [updates, ensure_again h f, ih]

theorem forEach_append' {S ι : Type} (g : ι → PyM S Unit) (xs ys : List ι) (s s' : S) (h : forEach g xs s = (.ok (), s')) :
    forEach g (xs ++ ys) s = forEach g ys s' := by
  induction xs generalizing s with
  | nil => rw [forEach_nil'] at h; cases h; rfl
  | cons x xs ih =>
    rw [List.cons_append, forEach_cons']
    rw [forEach_cons'] at h
    revert h
    rcases g x s with ⟨o, s1⟩
    cases o with
    | ok _ => intro h; exact ih s1 h
    | error e => intro h; cases h

/-- A module whose data cannot be read raises, and the features of the device stay as they were. -/
theorem module_unreadable (name : String) (f : Facts) (steps : List Step) (s : St) (e : Exc) (hr : Step.read ∈ steps) (he : f.data name = some e)
    (hn : (ids (s.of name ++ rowsOf steps f)).Nodup) :
    ∃ s', forEach (moduleStep name f) steps s = (.error e, s') ∧ s'.features = s.features := by
  induction steps generalizing s with
  | nil => cases hr
  | cons st steps ih =>
    rw [forEach_cons']
    cases st with
    | read =>
      have : moduleStep name f .read s = (.error e, s) := by
        unfold moduleStep
        rw [he]
        rfl
      rw [this]
      exact ⟨s, rfl, rfl⟩
    | row r =>
      have hr : Step.read ∈ steps := by cases hr with | tail _ h => exact h
      by_cases hc : r.cond f
      · have hrows : rowsOf (.row r :: steps) f = r :: rowsOf steps f := by simp [rowsOf, hc]
        rw [hrows] at hn
        have hno : (s.of name).any (fun x => x.id == r.id) = false := by
          rw [List.any_eq_false]
          intro x hx he
          have he : x.id = r.id := by simpa using he
          unfold ids at hn
          rw [List.map_append, List.nodup_append] at hn
          exact hn.2.2 x.id (List.mem_map_of_mem hx) r.id (by simp) he
        have hstep : moduleStep name f (.row r) s = (.ok (), { s with modules := Dict.set s.modules name (s.of name ++ [r]) }) := by
          simp [moduleStep, moduleAdd, hc, hno]
        rw [hstep]
        have hof : ({ s with modules := Dict.set s.modules name (s.of name ++ [r]) } : St).of name = s.of name ++ [r] := by
          rw [St.of_set]; simp
        exact ih { s with modules := Dict.set s.modules name (s.of name ++ [r]) } hr (by rw [hof]; simpa [List.append_assoc] using hn)
      · have hrows : rowsOf (.row r :: steps) f = rowsOf steps f := by simp [rowsOf, hc]
        rw [hrows] at hn
        have hstep : moduleStep name f (.row r) s = (.ok (), s) := by
          unfold moduleStep
          simp only [hc]
          rfl
        rw [hstep]
        exact ih s hr hn

theorem init_append (own : List Step) (pre post : List Class) (f : Facts) (s : St) (h : initFeatures own pre f fresh = (.ok (), s)) :
    initFeatures own (pre ++ post) f fresh = forEach (addModule f) post s := by
  unfold initFeatures at h ⊢
  simp only [bind_apply] at h ⊢
  revert h
  rcases forEach (ownStep f) own fresh with ⟨o, s1⟩
  cases o with
  | ok _ => intro h; exact forEach_append' _ _ _ _ _ h
  | error e => intro h; cases h

theorem deviceAdd_some (rows : List Row) (s : St) : ∃ p, p <+: rows ∧ (forEach deviceAdd rows s).2.features = s.features ++ p := by
  induction rows generalizing s with
  | nil => exact ⟨[], List.prefix_rfl, by simp [forEach_nil']⟩
  | cons r rows ih =>
    rw [forEach_cons']
    by_cases hr : s.features.any (fun x => x.id == r.id)
    · have hd : deviceAdd r s = (.error .kasa, s) := by unfold deviceAdd; rw [if_pos hr]
      rw [hd]
      exact ⟨[], List.nil_prefix, by simp⟩
    · have hd : deviceAdd r s = (.ok (), { s with features := s.features ++ [r] }) := by unfold deviceAdd; rw [if_neg hr]
      rw [hd]
      obtain ⟨p, hp, h⟩ := ih { s with features := s.features ++ [r] }
      exact ⟨r :: p, List.cons_prefix_cons.2 ⟨rfl, hp⟩, by simp only [h]; simp⟩

/-- A module whose data cannot be read. -/
theorem unreadable {own : List Step} {pre post : List Class} {c : Class} {f : Facts} {e : Exc}
    (hnames : ((pre ++ c :: post).map Class.name).Nodup) (hr : Readable pre f) (hn : (ids (offered own pre f)).Nodup)
    (hrows : (ids (rowsOf c.steps f)).Nodup) (hread : .read ∈ c.steps) (he : f.data c.name = some e) :
    ∃ s, ensure own (pre ++ c :: post) f fresh = (.error e, s) ∧ s.features = offered own pre f := by
  rw [List.map_append, List.nodup_append] at hnames
  obtain ⟨s1, h1, h2, h3⟩ := (init_all own pre f hnames.1 hr ((nodup_offered own pre f).1 hn).2.1).1 hn
  have hc : c.name ∉ pre.map Class.name := fun h => hnames.2.2 _ h _ (.head _) rfl
  obtain ⟨s2, g1, g2⟩ := module_unreadable c.name f c.steps s1 e hread he (by rw [h3 _ hc]; exact hrows)
  have he : ensure own (pre ++ c :: post) f fresh = initFeatures own (pre ++ c :: post) f fresh := rfl
  refine ⟨s2, ?_, by rw [g2, h2]⟩
  rw [he, init_append own pre (c :: post) f s1 h1, forEach_cons']
  have : addModule f c s1 = (.error e, s2) := by
    unfold addModule
    simp only [bind_apply, g1]
  rw [this]

/-- A module with an id that is taken. -/
theorem taken {own : List Step} {pre post : List Class} {c : Class} {f : Facts}
    (hnames : ((pre ++ c :: post).map Class.name).Nodup) (hr : Readable (pre ++ [c]) f) (hn : (ids (offered own pre f)).Nodup)
    (hrows : (ids (rowsOf c.steps f)).Nodup) (hbad : ¬(ids (offered own (pre ++ [c]) f)).Nodup) :
    ∃ s, ensure own (pre ++ c :: post) f fresh = (.error .kasa, s) ∧
      ∃ p, p <+: rowsOf c.steps f ∧ s.features = offered own pre f ++ p := by
  rw [List.map_append, List.nodup_append] at hnames
  obtain ⟨s1, h1, h2, h3⟩ := (init_all own pre f hnames.1 (fun c hc => hr c (List.mem_append_left _ hc)) ((nodup_offered own pre f).1 hn).2.1).1 hn
  have hc : c.name ∉ pre.map Class.name := fun h => hnames.2.2 _ h _ (.head _) rfl
  obtain ⟨s2, g1, g2, g3, _⟩ := module_all c.name f c.steps s1 (hr c (by simp)) (by rw [h3 _ hc]; exact hrows)
  have he : ensure own (pre ++ c :: post) f fresh = initFeatures own (pre ++ c :: post) f fresh := rfl
  rw [he, init_append own pre (c :: post) f s1 h1, forEach_cons']
  have hadd : addModule f c s1 = forEach deviceAdd (rowsOf c.steps f) s2 := by
    unfold addModule
    simp only [bind_apply, g1, get_apply, g3, h3 _ hc, List.nil_append]
  rw [hadd]
  have hd := (deviceAdd_all (rowsOf c.steps f) s2 (by rw [g2, h2]; exact hn)).2 (by
    rw [g2, h2]
    unfold offered at hbad ⊢
    simpa [List.append_assoc] using hbad)
  obtain ⟨p, hp, hf⟩ := deviceAdd_some (rowsOf c.steps f) s2
  revert hd hf
  rcases forEach deviceAdd (rowsOf c.steps f) s2 with ⟨o, s3⟩
  intro hd hf
  simp only at hd hf
  subst hd
  exact ⟨s3, rfl, p, hp, by rw [hf, g2, h2]⟩

/-- What is registered without a condition. -/
theorem offered_ne {own : List Step} (f : Facts) (mods : List Class) {r : Row} (h : .row r ∈ own) (hc : r.cond f = true) : offered own mods f ≠ [] := by
  intro h'
  have : r ∈ offered own mods f := mem_offered.2 ⟨hc, .inl h⟩
  rw [h'] at this
  cases this

/-- C77. If at the first update of a newer device the data of a module cannot be read, the update raises.  The features of that module and
of all modules behind it are lost: all later updates succeed without them, even when the data can be read. -/
theorem C77_smart_lost (pre post : List Class) (c : Class) (f : Facts) (e : Exc) (hm : Modules smartClasses (pre ++ c :: post))
    (hr : Readable pre f) (hno : ¬Clash pre f) (hread : .read ∈ c.steps) (he : f.data c.name = some e) (later : List Facts) :
    ∃ s, updates smartOwn (pre ++ c :: post) (f :: later) fresh = (.error e :: later.map fun _ => .ok (), s) ∧
      ∀ r, r ∈ s.features ↔ Offered smartOwn pre f r := by
  have hpre : Modules smartClasses pre := ⟨fun c hc => hm.1 c (List.mem_append_left _ hc), by
    have := hm.2
    rw [List.map_append, List.nodup_append] at this
    exact this.1⟩
  obtain ⟨s, h1, h2⟩ := unreadable (own := smartOwn) (post := post) hm.2 hr ((smart_nodup hpre f).2 hno)
    (nodup_rows hm f smart_rows c (by simp)) hread he
  have hne : s.features ≠ [] := by rw [h2]; exact offered_ne f pre (.head _) rfl
  refine ⟨s, by simp [updates, h1, updates_again hne], fun r => by rw [h2, mem_offered]⟩

/-- C77. If two modules of a newer device have a feature of the same id, only the first update raises.  The features of the modules behind the
second of them are lost: all later updates succeed without them. -/
theorem C77_smart_clash_lost (pre post : List Class) (c : Class) (f : Facts) (hm : Modules smartClasses (pre ++ c :: post))
    (hr : Readable (pre ++ [c]) f) (hno : ¬Clash pre f) (hclash : Clash (pre ++ [c]) f) (later : List Facts) :
    ∃ s, updates smartOwn (pre ++ c :: post) (f :: later) fresh = (.error .kasa :: later.map fun _ => .ok (), s) ∧
      (∀ r, Offered smartOwn pre f r → r ∈ s.features) ∧ ∀ r ∈ s.features, Offered smartOwn (pre ++ [c]) f r := by
  have hsub : ∀ l, (pre ++ [c]) ++ l = pre ++ c :: l := fun l => by simp
  have hpre : Modules smartClasses (pre ++ [c]) := ⟨fun d hd => hm.1 d (by rw [← hsub]; exact List.mem_append_left _ hd), by
    have := hm.2
    rw [← hsub, List.map_append, List.nodup_append] at this
    exact this.1⟩
  have hpre' : Modules smartClasses pre := ⟨fun d hd => hm.1 d (List.mem_append_left _ hd), by
    have := hm.2
    rw [List.map_append, List.nodup_append] at this
    exact this.1⟩
  obtain ⟨s, h1, p, hp, h2⟩ := taken (own := smartOwn) (post := post) hm.2 hr ((smart_nodup hpre' f).2 hno)
    (nodup_rows hm f smart_rows c (by simp)) (fun h => (smart_nodup hpre f).1 h hclash)
  have hne : s.features ≠ [] := by
    rw [h2]
    intro h
    exact offered_ne f pre (.head _) rfl (List.append_eq_nil_iff.1 h).1
  refine ⟨s, by simp [updates, h1, updates_again hne], fun r h => by rw [h2]; exact List.mem_append_left _ (mem_offered.2 h), fun r h => ?_⟩
  rw [h2, List.mem_append, mem_offered] at h
  rcases h with ⟨hc, h | ⟨d, hd, h⟩⟩ | h
  · exact ⟨hc, .inl h⟩
  · exact ⟨hc, .inr ⟨d, List.mem_append_left _ hd, h⟩⟩
  · obtain ⟨h, hc⟩ := mem_rowsOf.1 (hp.subset h)
    exact ⟨hc, .inr ⟨c, by simp, h⟩⟩

/-- C77. The same for a legacy device. -/
theorem C77_legacy_lost (pre post : List Class) (c : Class) (f : Facts) (e : Exc) (hm : Modules iotClasses (pre ++ c :: post))
    (hr : Readable pre f) (hread : .read ∈ c.steps) (he : f.data c.name = some e) (later : List Facts) :
    ∃ s, updates iotOwn (pre ++ c :: post) (f :: later) fresh = (.error e :: later.map fun _ => .ok (), s) ∧
      ∀ r, r ∈ s.features ↔ Offered iotOwn pre f r := by
  have hpre : Modules iotClasses pre := ⟨fun c hc => hm.1 c (List.mem_append_left _ hc), by
    have := hm.2
    rw [List.map_append, List.nodup_append] at this
    exact this.1⟩
  obtain ⟨s, h1, h2⟩ := unreadable (own := iotOwn) (post := post) hm.2 hr
    (nodup_of_tables hpre f (iot_own_rows _ (.head _)) iot_rows (iot_own_table _ (.head _)) iot_table)
    (nodup_rows hm f iot_rows c (by simp)) hread he
  have hne : s.features ≠ [] := by rw [h2]; exact offered_ne f pre (.head _) rfl
  refine ⟨s, by simp [updates, h1, updates_again hne], fun r => by rw [h2, mem_offered]⟩

/-- Modules that register nothing change nothing. -/
theorem silent (f : Facts) (mods : List Class) (s : St) (hr : Readable mods f) (hno : ∀ r, ¬Offered [] mods f r) (hof : ∀ c ∈ mods, s.of c.name = []) :
    forEach (addModule f) mods s = (.ok (), s) := by
  induction mods with
  | nil => rfl
  | cons c mods ih =>
    have hsteps : ∀ steps : List Step, (∀ st ∈ steps, st ∈ c.steps) → forEach (moduleStep c.name f) steps s = (.ok (), s) := by
      intro steps
      induction steps with
      | nil => intro _; rfl
      | cons st steps ih' =>
        intro h
        rw [forEach_cons']
        have : moduleStep c.name f st s = (.ok (), s) := by
          cases st with
          | read =>
            unfold moduleStep
            rw [hr c (.head _) (h _ (.head _))]
            rfl
          | row r =>
            have hc : ¬r.cond f = true := fun hc => hno r ⟨hc, .inr ⟨c, .head _, h _ (.head _)⟩⟩
            unfold moduleStep
            simp only [hc]
            rfl
        rw [this]
        exact ih' fun st hst => h st (.tail _ hst)
    have hadd : addModule f c s = (.ok (), s) := by
      unfold addModule
      simp only [bind_apply, hsteps c.steps (fun _ h => h), get_apply, hof c (.head _)]
      rfl
    rw [forEach_cons', hadd]
    exact ih (fun c' hc' => hr c' (.tail _ hc')) (fun r ⟨hc, h⟩ => hno r ⟨hc, .inr (by
      rcases h with h | ⟨c', hc', h⟩
      · cases h
      · exact ⟨c', .tail _ hc', h⟩)⟩) (fun c' hc' => hof c' (.tail _ hc'))

/-- C77. A camera without other features whose device information cannot be read at the first update never recovers: this update raises,
and every later one does, even when the information can be read. -/
theorem C77_camera_stuck (pre post : List Class) (f : Facts) (e : Exc)
    (hm : Modules camClasses (pre ++ ⟨"devicemodule", camDeviceModuleSteps⟩ :: post)) (he : f.data "devicemodule" = some e) (later : List Facts)
    (hpre : ∀ g ∈ f :: later, Readable pre g ∧ ∀ r, ¬Offered [] pre g r) :
    ∃ s, updates [] (pre ++ ⟨"devicemodule", camDeviceModuleSteps⟩ :: post) (f :: later) fresh = (.error e :: later.map fun _ => .error .kasa, s) ∧
      s.features = [] := by
  have hnot : ∀ c ∈ pre, c.name ≠ "devicemodule" := by
    intro c hc h
    have := hm.2
    rw [List.map_append, List.nodup_append] at this
    exact this.2.2 _ (List.mem_map_of_mem hc) _ (.head _) h
  have hinit : ∀ g s, s.features = [] → initFeatures [] (pre ++ ⟨"devicemodule", camDeviceModuleSteps⟩ :: post) g s =
      forEach (addModule g) (pre ++ ⟨"devicemodule", camDeviceModuleSteps⟩ :: post) s := fun _ _ _ => rfl
  have hens : ∀ g s, s.features = [] → ensure [] (pre ++ ⟨"devicemodule", camDeviceModuleSteps⟩ :: post) g s =
      forEach (addModule g) (pre ++ ⟨"devicemodule", camDeviceModuleSteps⟩ :: post) s := fun g s hs => by
    unfold ensure
    rw [hs]
    rfl
  -- the state after the first update
  let bad : St := ⟨[], [("devicemodule", [{ id := "device_id", name := "Device ID", kind := .sensor, category := .debug }])]⟩
  have hfirst : ensure [] (pre ++ ⟨"devicemodule", camDeviceModuleSteps⟩ :: post) f fresh = (.error e, bad) := by
    rw [hens f fresh rfl, forEach_append' _ _ _ _ _ (silent f pre fresh (hpre f (.head _)).1 (hpre f (.head _)).2 (fun _ _ => rfl)), forEach_cons']
    have : addModule f ⟨"devicemodule", camDeviceModuleSteps⟩ fresh = (.error e, bad) := by
      unfold addModule camDeviceModuleSteps
      simp [forEach_cons', moduleStep, moduleAdd, fresh, St.of, he, bad, bind_apply, Dict.get?, Dict.set]
    rw [this]
  have hagain : ∀ g ∈ later, ensure [] (pre ++ ⟨"devicemodule", camDeviceModuleSteps⟩ :: post) g bad = (.error .kasa, bad) := by
    intro g hg
    have hof : ∀ c ∈ pre, bad.of c.name = [] := by
      intro c hc
      have := hnot c hc
      simp only [bad, St.of]
      rw [Dict.get?_cons]
      simp [Ne.symm this, Dict.get?_nil]
    rw [hens g bad rfl, forEach_append' _ _ _ _ _ (silent g pre bad (hpre g (.tail _ hg)).1 (hpre g (.tail _ hg)).2 hof), forEach_cons']
    have : addModule g ⟨"devicemodule", camDeviceModuleSteps⟩ bad = (.error .kasa, bad) := by
      unfold addModule camDeviceModuleSteps
      simp [forEach_cons', moduleStep, moduleAdd, St.of, bad, bind_apply, Dict.get?]
    rw [this]
  have hlater : ∀ l : List Facts, (∀ g ∈ l, g ∈ later) →
      updates [] (pre ++ ⟨"devicemodule", camDeviceModuleSteps⟩ :: post) l bad = (l.map fun _ => .error .kasa, bad) := by
    intro l
    induction l with
    | nil => intro _; rfl
    | cons g l ih =>
      intro h
      simp only [updates, hagain g (h g (.head _)), ih fun g hg => h g (.tail _ hg), List.map_cons]
  exact ⟨bad, by simp only [updates, hfirst, hlater later fun _ h => h], rfl⟩

/-! ## Names and values -/

theorem foldl_state (l : List Row) (d : List (String × String)) (name : String) :
    Dict.get? (l.foldl (fun d r => Dict.set d r.name r.id) d) name =
      (match (l.reverse.find? fun r => r.name == name) with | some r => some r.id | none => Dict.get? d name) := by
  induction l generalizing d with
  | nil => simp
  | cons r l ih =>
    simp only [List.foldl_cons, List.reverse_cons, List.find?_append, List.find?_cons, List.find?_nil]
    rw [ih, Dict.get?_set]
    cases l.reverse.find? fun r => r.name == name with
    | some x => simp
    | none =>
      by_cases h : r.name = name
      · simp [h]
      · have h' : (r.name == name) = false := by simpa using h
        simp [h, h']

/-- Under its name the value of a feature is shown if no feature registered later has that name. -/
theorem shown {l : List Row} {r : Row} (h : r ∈ l) (hno : ∀ a ∈ l, a.name = r.name → a.id = r.id) :
    Dict.get? (stateInformation l) r.name = some r.id := by
  unfold stateInformation
  rw [foldl_state]
  cases hf : l.reverse.find? fun x => x.name == r.name with
  | none =>
    rw [List.find?_eq_none] at hf
    exact absurd (by simp) (hf r (List.mem_reverse.2 h))
  | some x =>
    have h1 : x.name = r.name := by simpa using List.find?_some hf
    exact congrArg some (hno x (List.mem_reverse.1 (List.mem_of_find?_eq_some hf)) h1)

theorem shown_last {l1 l2 : List Row} {r : Row} (hno : ∀ a ∈ l2, a.name ≠ r.name) :
    Dict.get? (stateInformation (l1 ++ r :: l2)) r.name = some r.id := by
  unfold stateInformation
  rw [List.foldl_append, List.foldl_cons, foldl_state]
  have : (l2.reverse.find? fun x => x.name == r.name) = none := by
    rw [List.find?_eq_none]
    intro x hx
    simpa using hno x (List.mem_reverse.1 hx)
  rw [this]
  exact Dict.get?_set_self _ _ _

theorem smart_names : ∀ a ∈ allRows smartOwn ++ smartClasses.flatMap (fun c => allRows c.steps),
    ∀ b ∈ allRows smartOwn ++ smartClasses.flatMap (fun c => allRows c.steps), a.name = b.name → a.id = b.id ∨ a.name = "Alarm volume" := by
  decide +kernel

theorem smart_volume : ∀ c ∈ smartClasses, ∀ a ∈ allRows c.steps, a.name = "Alarm volume" →
    c.name = "Alarm" ∧ (a.id = "alarm_volume" ∨ a.id = "alarm_volume_level") := by
  decide +kernel

theorem smart_own_volume : ∀ a ∈ allRows smartOwn, a.name ≠ "Alarm volume" := by decide +kernel

theorem iot_names : ∀ own ∈ [iotOwn, plugOwn], ∀ a ∈ allRows own ++ iotClasses.flatMap (fun c => allRows c.steps),
    ∀ b ∈ allRows own ++ iotClasses.flatMap (fun c => allRows c.steps), a.name = b.name → a.id = b.id := by
  decide +kernel

theorem cam_names : ∀ a ∈ camClasses.flatMap (fun c => allRows c.steps),
    ∀ b ∈ camClasses.flatMap (fun c => allRows c.steps), a.name = b.name → a.id = b.id := by
  decide +kernel

theorem offered_mem {own : List Step} {known mods : List Class} (hm : Modules known mods) {f : Facts} {r : Row} (h : r ∈ offered own mods f) :
    r ∈ allRows own ++ known.flatMap (fun c => allRows c.steps) := by
  obtain ⟨_, h | ⟨c, hc, h⟩⟩ := mem_offered.1 h
  · exact List.mem_append_left _ (mem_allRows.2 h)
  · exact List.mem_append_right _ (List.mem_flatMap.2 ⟨c, hm.1 c hc, mem_allRows.2 h⟩)

/-- The features after a first update that succeeds. -/
theorem features_of {own : List Step} {mods : List Class} {f : Facts} {s : St} (hm : (mods.map Class.name).Nodup) (hr : Readable mods f)
    (hrows : ∀ c ∈ mods, (ids (rowsOf c.steps f)).Nodup) (h : ensure own mods f fresh = (.ok (), s)) : s.features = offered own mods f := by
  have hi := init_all own mods f hm hr hrows
  have he : ensure own mods f fresh = initFeatures own mods f fresh := rfl
  rw [he] at h
  by_cases hn : (ids (offered own mods f)).Nodup
  · obtain ⟨s', h1, h2, _⟩ := hi.1 hn
    rw [h] at h1
    cases h1
    exact h2
  · have := hi.2 hn
    rw [h] at this
    cases this

/-- C77. The state information of a legacy device or of the plug of a legacy strip shows the value of every feature under its name. -/
theorem C77_legacy_shown (own : List Step) (ho : own = iotOwn ∨ own = plugOwn) (mods : List Class) (f : Facts) (hm : Modules iotClasses mods)
    (hr : Readable mods f) (s : St) (h : ensure own mods f fresh = (.ok (), s)) (r : Row) (hr' : r ∈ s.features) :
    Dict.get? (stateInformation s.features) r.name = some r.id := by
  have ho : own ∈ [iotOwn, plugOwn] := by
    rcases ho with rfl | rfl
    · exact .head _
    · exact .tail _ (.head _)
  rw [features_of hm.2 hr (nodup_rows hm f iot_rows) h] at hr' ⊢
  exact shown hr' fun a ha hn => iot_names own ho a (offered_mem hm ha) r (offered_mem hm hr') hn

/-- C77. So does that of a camera. -/
theorem C77_camera_shown (mods : List Class) (f : Facts) (hm : Modules camClasses mods) (hr : Readable mods f) (s : St)
    (h : ensure [] mods f fresh = (.ok (), s)) (r : Row) (hr' : r ∈ s.features) :
    Dict.get? (stateInformation s.features) r.name = some r.id := by
  rw [features_of hm.2 hr (nodup_rows hm f cam_rows) h] at hr' ⊢
  exact shown hr' fun a ha hn => cam_names a (by simpa [allRows] using offered_mem hm ha) r (by simpa [allRows] using offered_mem hm hr') hn

theorem alarm_rows (f : Facts) : ∃ A B, ∃ r : Row, rowsOf smartAlarmSteps f = A ++ r :: B ∧ r.name = "Alarm volume" ∧ r.id = "alarm_volume_level" ∧
    ∀ a ∈ B, a.name ≠ "Alarm volume" :=
  ⟨[_, _, _, _], [_, _, _], _, rfl, rfl, rfl, by simp⟩

theorem volume_id : ∀ a ∈ allRows smartOwn ++ smartClasses.flatMap (fun c => allRows c.steps), a.id = "alarm_volume" → a.name = "Alarm volume" := by
  decide +kernel

theorem volume_level {mods : List Class} (hm : Modules smartClasses mods) (f : Facts) (ha : Has mods "Alarm") :
    Dict.get? (stateInformation (offered smartOwn mods f)) "Alarm volume" = some "alarm_volume_level" := by
  obtain ⟨c, hc, hcn⟩ := has_iff.1 ha
  have hcs := (smart_steps c (hm.1 c hc)).2.2.2.2.2 hcn
  obtain ⟨m1, m2, rfl⟩ := List.append_of_mem hc
  have hm2 : ∀ d ∈ m2, d.name ≠ "Alarm" := by
    intro d hd h
    have := hm.2
    rw [List.map_append, List.nodup_append] at this
    have := this.2.1
    rw [List.map_cons, List.nodup_cons] at this
    exact this.1 (by rw [hcn, ← h]; exact List.mem_map_of_mem hd)
  obtain ⟨A, B, r, hrow, hrn, hri, hB⟩ := alarm_rows f
  have hsplit : offered smartOwn (m1 ++ c :: m2) f =
      (rowsOf smartOwn f ++ m1.flatMap (fun c => rowsOf c.steps f) ++ A) ++ r :: (B ++ m2.flatMap fun c => rowsOf c.steps f) := by
    unfold offered
    rw [List.flatMap_append, List.flatMap_cons, hcs, hrow]
    simp [List.append_assoc]
  rw [hsplit, ← hrn, ← hri]
  apply shown_last
  intro a ha
  rw [hrn]
  rcases List.mem_append.1 ha with ha | ha
  · exact hB a ha
  · obtain ⟨d, hd, ha⟩ := List.mem_flatMap.1 ha
    intro hn
    exact hm2 d hd (smart_volume d (hm.1 d (List.mem_append_right _ (.tail _ hd))) a (mem_allRows.2 (mem_rowsOf.1 ha).1) hn).1

/-- C77. The state information of a newer device shows the value of every feature under its name, except that of the volume of the alarm. -/
theorem C77_smart_shown_partial (mods : List Class) (f : Facts) (hm : Modules smartClasses mods) (hr : Readable mods f) (s : St)
    (h : ensure smartOwn mods f fresh = (.ok (), s)) (r : Row) (hr' : r ∈ s.features) (hv : r.id ≠ "alarm_volume") :
    Dict.get? (stateInformation s.features) r.name = some r.id := by
  rw [features_of hm.2 hr (nodup_rows hm f smart_rows) h] at hr' ⊢
  by_cases hn : r.name = "Alarm volume"
  · obtain ⟨_, h' | ⟨c, hc, h'⟩⟩ := mem_offered.1 hr'
    · exact absurd hn (smart_own_volume r (mem_allRows.2 h'))
    · obtain ⟨hcn, hi⟩ := smart_volume c (hm.1 c hc) r (mem_allRows.2 h') hn
      have hi : r.id = "alarm_volume_level" := hi.resolve_left hv
      rw [hn, hi]
      exact volume_level hm f (has_iff.2 ⟨c, hc, hcn⟩)
  · exact shown hr' fun a ha hna => (smart_names a (offered_mem hm ha) r (offered_mem hm hr') hna).resolve_right (by rw [hna]; exact hn)

/-- C77. The volume of the alarm has the same name as its level, which is shown instead. -/
theorem C77_volume_hidden (mods : List Class) (f : Facts) (hm : Modules smartClasses mods) (hr : Readable mods f) (s : St)
    (h : ensure smartOwn mods f fresh = (.ok (), s)) (ha : Has mods "Alarm") :
    (∃ r ∈ s.features, r.id = "alarm_volume" ∧ r.name = "Alarm volume") ∧
    (∀ n, Dict.get? (stateInformation s.features) n ≠ some "alarm_volume") := by
  rw [features_of hm.2 hr (nodup_rows hm f smart_rows) h]
  constructor
  · obtain ⟨c, hc, hcn⟩ := has_iff.1 ha
    have hcs := (smart_steps c (hm.1 c hc)).2.2.2.2.2 hcn
    exact ⟨_, mem_offered.2 ⟨rfl, .inr ⟨c, hc, by rw [hcs]; exact .tail _ (.tail _ (.tail _ (.head _)))⟩⟩, rfl, rfl⟩
  · intro n hn
    have hn' := hn
    unfold stateInformation at hn
    rw [foldl_state] at hn
    cases hf : (offered smartOwn mods f).reverse.find? fun x => x.name == n with
    | none => rw [hf] at hn; cases hn
    | some x =>
      rw [hf] at hn
      have h1 : x.name = n := by simpa using List.find?_some hf
      have h2 := volume_id x (offered_mem hm (List.mem_reverse.1 (List.mem_of_find?_eq_some hf))) (Option.some.inj hn)
      rw [← h1, h2, volume_level hm f ha] at hn'
      exact absurd hn' (by decide)

/-! ## The kinds -/

set_option synthInstance.maxSize 1000 in
set_option synthInstance.maxHeartbeats 200000 in
theorem usable_table : ∀ own ∈ [smartOwn, iotOwn, plugOwn], ∀ r ∈ allRows own, Usable r := by
  unfold Usable
  decide +kernel

set_option synthInstance.maxSize 1000 in
set_option synthInstance.maxHeartbeats 200000 in
theorem usable_classes : ∀ known ∈ [smartClasses, iotClasses, camClasses], ∀ c ∈ known, ∀ r ∈ allRows c.steps, Usable r := by
  unfold Usable
  decide +kernel

theorem accepted {r : Row} (h : Usable r) : ∃ g, Feature.postInit (feature r) = .ok g ∧ g.kind = r.kind ∧ g.settable = r.setter := by
  unfold Feature.postInit feature
  by_cases hk : r.kind = .sensor ∨ r.kind = .binarySensor
  · obtain ⟨h1, h2⟩ := h.2.2.1 hk
    by_cases hu : r.category = .unset
    · simp [hk, h1, hu]
    · simp [hk, h1, h2, hu]
  · simp [hk]

/-- C77. Every feature a device has is accepted when it is constructed, and can be used as its kind says. -/
theorem C77_usable (own : List Step) (known mods : List Class) (f : Facts)
    (hk : own = smartOwn ∧ known = smartClasses ∨ (own = iotOwn ∨ own = plugOwn) ∧ known = iotClasses ∨ own = [] ∧ known = camClasses)
    (hm : ∀ c ∈ mods, c ∈ known) (r : Row) (hr : Offered own mods f r) :
    Usable r ∧ ∃ g, Feature.postInit (feature r) = .ok g ∧ g.kind = r.kind ∧ g.settable = r.setter := by
  have hu : Usable r := by
    obtain ⟨_, h | ⟨c, hc, h⟩⟩ := hr
    · rcases hk with ⟨rfl, _⟩ | ⟨rfl | rfl, _⟩ | ⟨rfl, _⟩
      · exact usable_table _ (.head _) r (mem_allRows.2 h)
      · exact usable_table _ (.tail _ (.head _)) r (mem_allRows.2 h)
      · exact usable_table _ (.tail _ (.tail _ (.head _))) r (mem_allRows.2 h)
      · cases h
    · rcases hk with ⟨_, rfl⟩ | ⟨_, rfl⟩ | ⟨_, rfl⟩
      · exact usable_classes _ (.head _) c (hm c hc) r (mem_allRows.2 h)
      · exact usable_classes _ (.tail _ (.head _)) c (hm c hc) r (mem_allRows.2 h)
      · exact usable_classes _ (.tail _ (.tail _ (.head _))) c (hm c hc) r (mem_allRows.2 h)
  exact ⟨hu, accepted hu⟩

/-! ## Examples -/

/-- A light that is on, with a data error for the modules named. -/
def facts (keys broken : List String) : Facts :=
  { has := keys.contains, energyTotal := true, energyVoltage := true, autoUpdate := true, onAndOff := true, consumable := fun _ => true,
    parentPairs := false, strip := false, dimmable := true, variableTemp := true, color := true, motion := true, lensMask := false, signal := true,
    data := fun n => if broken.contains n then some .kasa else none }

def pick (known : List Class) (names : List String) : List Class := known.filter fun c => names.contains c.name

example : Modules smartClasses (pick smartClasses ["Alarm", "ChildLock", "Brightness"]) ∧
    (((ensure smartOwn (pick smartClasses ["Alarm", "ChildLock", "Brightness"]) (facts ["device_on", "rssi"] [])) fresh).2.features.map Row.id =
      ["device_id", "state", "rssi", "reboot", "alarm", "alarm_source", "alarm_sound", "alarm_volume", "alarm_volume_level", "alarm_duration",
        "test_alarm", "stop_alarm", "brightness", "child_lock"]) :=
  ⟨⟨fun _ h => (List.mem_filter.1 h).1, by decide +kernel⟩, by decide +kernel⟩

example : Clash (pick smartClasses ["ChildLock", "ChildProtection", "Time"]) (facts [] []) := .inl (by unfold Has; decide +kernel)

example : ((updates smartOwn (pick smartClasses ["ChildLock", "ChildProtection", "Time"]) [facts [] [], facts [] []] fresh).2.features.map Row.id) =
    ["device_id", "reboot", "child_lock"] := by decide +kernel

example : (updates [] (pick camClasses ["childdevice", "devicemodule", "Time"]) [facts [] ["devicemodule"], facts [] [], facts [] []] fresh).2.features.map Row.id =
    [] := by decide +kernel

example : (updates [] (pick camClasses ["childdevice", "devicemodule", "Time"]) [facts [] [], facts [] []] fresh).2.features.map Row.id =
    ["device_id", "rssi", "signal_level", "device_time"] := by decide +kernel

example : ((ensure iotOwn (pick iotClasses ["Light", "Usage", "emeter"]) (facts ["on_time"] [])) fresh).2.features.map Row.id ≠ [] := by decide +kernel

end Kasa.Features
