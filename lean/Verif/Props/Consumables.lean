import Verif.Model.Consumables
/-!
# C40: what a vacuum reports it has used up
-/

namespace Kasa.Consumables

/-! ## One vacuum -/

theorem metas_ids : ∀ m ∈ metas, ∀ m' ∈ metas, m.id = m'.id → m = m' := by decide
theorem metas_keys : ∀ m ∈ metas, ∀ m' ∈ metas, m.dataKey = m'.dataKey → m = m' := by decide

theorem create_spec (data : Data) (ms : List Meta) (hn : ms.Pairwise (fun a b => a.id ≠ b.id)) (i : String) (c : Consumable) :
    Dict.get? (create data ms) i = some c ↔ ∃ m ∈ ms, m.id = i ∧ ∃ used, Dict.get? data m.dataKey = some used ∧ c = consumable m used := by
  induction ms with
  | nil => simp [create, Dict.get?]
  | cons m rest ih =>
    rw [List.pairwise_cons] at hn
    unfold create
    cases hd : Dict.get? data m.dataKey with
    | none =>
      simp only
      rw [ih hn.2]
      constructor
      · rintro ⟨m', h1, h2⟩
        exact ⟨m', List.mem_cons_of_mem _ h1, h2⟩
      · rintro ⟨m', h1, h2, used, h3, h4⟩
        rcases List.mem_cons.mp h1 with h1 | h1
        · subst h1; rw [hd] at h3; cases h3
        · exact ⟨m', h1, h2, used, h3, h4⟩
    | some u =>
      simp only
      rw [Dict.get?_cons]
      by_cases hi : m.id = i
      · rw [if_pos hi]
        constructor
        · intro h; cases h; exact ⟨m, List.mem_cons_self, hi, u, hd, rfl⟩
        · rintro ⟨m', h1, h2, used, h3, h4⟩
          rcases List.mem_cons.mp h1 with h1 | h1
          · subst h1; rw [hd] at h3; cases h3; rw [h4]
          · exact absurd (hi.trans h2.symm) (hn.1 m' h1)
      · rw [if_neg hi, ih hn.2]
        constructor
        · rintro ⟨m', h1, h2⟩
          exact ⟨m', List.mem_cons_of_mem _ h1, h2⟩
        · rintro ⟨m', h1, h2, used, h3, h4⟩
          rcases List.mem_cons.mp h1 with h1 | h1
          · subst h1; exact absurd h2 hi
          · exact ⟨m', h1, h2, used, h3, h4⟩

/-- The parts a vacuum reports. -/
def reported (data : Data) : List Meta := metas.filter (fun m => Dict.has data m.dataKey)

theorem create_eq (data : Data) (ms : List Meta) :
    create data ms = (ms.filter (fun m => Dict.has data m.dataKey)).map (fun m => (m.id, consumable m ((Dict.get? data m.dataKey).getD 0))) := by
  induction ms with
  | nil => rfl
  | cons m rest ih =>
    unfold create
    cases hd : Dict.get? data m.dataKey with
    | none =>
      have hh : Dict.has data m.dataKey = false := by unfold Dict.has; rw [hd]; rfl
      rw [List.filter_cons_of_neg (by rw [hh]; decide)]
      exact ih
    | some u =>
      have hh : Dict.has data m.dataKey = true := by unfold Dict.has; rw [hd]; rfl
      rw [List.filter_cons_of_pos (p := fun m : Meta => Dict.has data m.dataKey) hh, List.map_cons, hd, ih]
      rfl

theorem refresh_map (data : Data) (ms : List Meta) (f : Meta → Int) (h : ∀ m ∈ ms, Dict.has data m.dataKey = true) :
    refresh data (ms.map (fun m => (m.id, consumable m (f m)))) =
      (.ok (), ms.map (fun m => (m.id, consumable m ((Dict.get? data m.dataKey).getD 0)))) := by
  induction ms with
  | nil => rfl
  | cons m rest ih =>
    have hm := h m List.mem_cons_self
    unfold Dict.has at hm
    rw [List.map_cons, List.map_cons]
    unfold refresh
    change (match Dict.get? data m.dataKey with | none => _ | some used => _) = _
    cases hd : Dict.get? data m.dataKey with
    | none => rw [hd] at hm; cases hm
    | some u =>
      simp only
      rw [ih (fun m' h' => h m' (List.mem_cons_of_mem _ h'))]
      rfl

/-- All vacuums of the process report the same parts. -/
def SameParts (d d' : Data) : Prop := ∀ m ∈ metas, Dict.has d m.dataKey = Dict.has d' m.dataKey

theorem reported_eq (d d' : Data) (h : SameParts d d') : reported d = reported d' := by
  unfold reported
  apply List.filter_congr
  exact h

/-- What is stored after an answer with the given parts. -/
def stored (data : Data) : List (String × Consumable) :=
  (reported data).map (fun m => (m.id, consumable m ((Dict.get? data m.dataKey).getD 0)))

theorem update_stored (d d' : Data) (h : SameParts d d') : update (stored d) d' = (.ok (), stored d') := by
  unfold update
  by_cases he : (stored d).isEmpty = true
  · rw [if_pos he, create_eq]
    rfl
  · rw [if_neg he]
    unfold stored
    rw [← reported_eq d d' h]
    apply refresh_map
    intro m hm
    unfold reported at hm
    rw [List.mem_filter] at hm
    rw [← h m hm.1]
    exact hm.2

theorem run_stored (d : Data) (hist : List Data) (h : ∀ d' ∈ hist, SameParts d d') :
    run (stored d) hist = stored (hist.getLast?.getD d) := by
  induction hist generalizing d with
  | nil => rfl
  | cons x rest ih =>
    unfold run
    have hx := h x List.mem_cons_self
    rw [update_stored d x hx]
    simp only
    rw [ih x (fun d' hd' m hm => (hx m hm).symm.trans (h d' (List.mem_cons_of_mem _ hd') m hm))]
    cases rest with
    | nil => rfl
    | cons y ys =>
      rw [List.getLast?_cons_cons]
      cases hg : (y :: ys).getLast? with
      | none => simp at hg
      | some z => rfl

/-- Spec: a table of lifetimes in hours and of the keys under which a vacuum reports the minutes. -/
def Part (id key : String) (hours : Int) : Prop :=
  (id, key, hours) ∈ ([("main_brush", "roll_brush_time", 400), ("side_brush", "edge_brush_time", 200), ("filter", "filter_time", 200),
    ("sensor", "sensor_time", 30), ("charging_contacts", "charge_contact_time", 30)] : List (String × String × Int))

theorem part_iff (id key : String) (hours : Int) : Part id key hours ↔ ∃ m ∈ metas, m.id = id ∧ m.dataKey = key ∧ m.lifetime = hours * 60 := by
  unfold Part metas
  simp only [List.mem_cons, List.not_mem_nil, or_false, Prod.mk.injEq]
  constructor
  · rintro (⟨h1, h2, h3⟩ | ⟨h1, h2, h3⟩ | ⟨h1, h2, h3⟩ | ⟨h1, h2, h3⟩ | ⟨h1, h2, h3⟩) <;> subst h1 <;> subst h2 <;> subst h3 <;> simp
  · rintro ⟨m, (h | h | h | h | h), h1, h2, h3⟩ <;> subst h <;> subst h1 <;> subst h2 <;> simp at h3 ⊢ <;> omega

/-- C40, one vacuum: after each of its updates, in which it always reports the same parts, exactly those are there, each with the
time of the last answer as used and the rest of its lifetime as remaining.  Missing: other vacuums in the same process, see
`C40_shared`, and vacuums whose parts change, see `C40_missing`. -/
theorem C40_single_partial (first : Data) (hist : List Data) (h : ∀ d ∈ hist, SameParts first d) (id : String) (c : Consumable) :
    Dict.get? (run [] (first :: hist)) id = some c ↔
      ∃ key hours used, Part id key hours ∧ Dict.get? (hist.getLast?.getD first) key = some used ∧
        c.info = ⟨id, key, hours * 60⟩ ∧ c.used = used ∧ c.remaining = hours * 60 - used := by
  have hr : run [] (first :: hist) = create (hist.getLast?.getD first) metas := by
    change run (update [] first).2 hist = _
    have h1 : (update [] first).2 = stored first := by
      change create first metas = _
      rw [create_eq]
      rfl
    rw [h1, run_stored first hist h, create_eq]
    rfl
  rw [hr, create_spec _ metas (by decide)]
  constructor
  · rintro ⟨m, hm, hi, used, hu, hc⟩
    have hours : ∃ hours, m.lifetime = hours * 60 := by
      unfold metas at hm
      simp only [List.mem_cons, List.not_mem_nil, or_false] at hm
      rcases hm with h | h | h | h | h <;> subst h <;> exact ⟨_, rfl⟩
    obtain ⟨hh, hl⟩ := hours
    subst hc
    refine ⟨m.dataKey, hh, used, (part_iff _ _ _).mpr ⟨m, hm, hi, rfl, hl⟩, hu, ?_, rfl, ?_⟩
    · change m = _
      rw [← hl, ← hi]
    · change m.lifetime - used = _
      rw [hl]
  · rintro ⟨key, hours, used, hp, hu, h1, h2, h3⟩
    obtain ⟨m, hm, hi, hk, hl⟩ := (part_iff _ _ _).mp hp
    refine ⟨m, hm, hi, used, by rw [hk]; exact hu, ?_⟩
    obtain ⟨info, u, r⟩ := c
    simp only at h1 h2 h3
    unfold consumable
    have hinfo : info = m := by rw [h1, ← hi, ← hk, ← hl]
    rw [hinfo, h2, h3, hl]

/-! ## Two vacuums -/

/-- C40 is false of two vacuums in one process: after the second one has been updated, the first one, whose `consumables` is the
same dict, reports what the second one uses. -/
theorem C40_shared (a b : Data) (h : SameParts a b) :
    run [] [a, b] = run [] [b] := by
  change run (update (update [] a).2 b).2 [] = run (update [] b).2 []
  have h1 : ∀ d, (update [] d).2 = stored d := by
    intro d
    change create d metas = _
    rw [create_eq]
    rfl
  rw [h1, h1, update_stored a b h]

theorem refresh_missing (data : Data) (shared : List (String × Consumable)) (h : ∃ x ∈ shared, Dict.get? data x.2.info.dataKey = none) :
    (refresh data shared).1 = .error (.other "KeyError") := by
  induction shared with
  | nil => obtain ⟨x, hx, -⟩ := h; cases hx
  | cons y rest ih =>
    obtain ⟨i, c⟩ := y
    unfold refresh
    cases hd : Dict.get? data c.info.dataKey with
    | none => rfl
    | some u =>
      simp only
      apply ih
      obtain ⟨x, hx, hn⟩ := h
      rcases List.mem_cons.mp hx with hx | hx
      · subst hx; rw [hd] at hn; cases hn
      · exact ⟨x, hx, hn⟩

theorem refresh_keys (data : Data) (shared : List (String × Consumable)) : Dict.keys (refresh data shared).2 = Dict.keys shared := by
  induction shared with
  | nil => rfl
  | cons y rest ih =>
    obtain ⟨i, c⟩ := y
    unfold refresh
    cases hd : Dict.get? data c.info.dataKey with
    | none => rfl
    | some u =>
      simp only
      rw [Dict.keys_cons, Dict.keys_cons, ih]

/-- C40 is false of vacuums with different parts: if an earlier update was of one with a part this one does not report, the update
of this one fails with a KeyError. -/
theorem C40_missing (a b : Data) (id key : String) (hours : Int) (hp : Part id key hours) (ha : Dict.has a key = true) (hb : Dict.has b key = false) :
    (update (run [] [a]) b).1 = .error (.other "KeyError") := by
  obtain ⟨m, hm, hi, hk, hl⟩ := (part_iff _ _ _).mp hp
  have hr : run [] [a] = create a metas := rfl
  obtain ⟨used, hu⟩ : ∃ used, Dict.get? a m.dataKey = some used := by
    rw [hk]
    unfold Dict.has at ha
    cases hd : Dict.get? a key with
    | none => rw [hd] at ha; cases ha
    | some u => exact ⟨u, rfl⟩
  have hget := (create_spec a metas (by decide) id (consumable m used)).mpr ⟨m, hm, hi, used, hu, rfl⟩
  have hmem := Dict.mem_of_get? hget
  rw [hr]
  unfold update
  rw [if_neg (by cases hx : create a metas with | nil => rw [hx] at hmem; cases hmem | cons x xs => simp)]
  apply refresh_missing
  refine ⟨_, hmem, ?_⟩
  change Dict.get? b m.dataKey = none
  rw [hk]
  unfold Dict.has at hb
  cases hd : Dict.get? b key with
  | none => rfl
  | some u => rw [hd] at hb; cases hb

/-- C40 is false of vacuums with different parts: a part that the first updated vacuum did not report is not there for any later
one, as long as the first reported any, and cannot be reset. -/
theorem C40_extra (a : Data) (hist : List Data) (id key : String) (hours : Int) (hp : Part id key hours) (ha : Dict.has a key = false)
    (hsome : ∃ id' key' hours', Part id' key' hours' ∧ Dict.has a key' = true) :
    Dict.get? (run [] (a :: hist)) id = none ∧ reset (run [] (a :: hist)) id = .error (.other "KeyError") := by
  have hkeys : ∀ (hist : List Data) (sh : List (String × Consumable)), sh ≠ [] → Dict.keys (run sh hist) = Dict.keys sh := by
    intro hist
    induction hist with
    | nil => intro sh _; rfl
    | cons d rest ih =>
      intro sh hne
      have hu : (update sh d).2 = (refresh d sh).2 := by
        unfold update
        rw [if_neg (by cases sh with | nil => exact absurd rfl hne | cons x xs => simp)]
      unfold run
      rw [hu, ih, refresh_keys]
      intro he
      have := refresh_keys d sh
      rw [he] at this
      cases sh with
      | nil => exact hne rfl
      | cons x xs => simp [Dict.keys] at this
  obtain ⟨m, hm, hi, hk, hl⟩ := (part_iff _ _ _).mp hp
  have hr : run [] (a :: hist) = run (create a metas) hist := rfl
  have hne : create a metas ≠ [] := by
    obtain ⟨id', key', hours', hp', ha'⟩ := hsome
    obtain ⟨m', hm', hi', hk', hl'⟩ := (part_iff _ _ _).mp hp'
    rw [create_eq]
    intro he
    have : m' ∈ metas.filter (fun m => Dict.has a m.dataKey) := List.mem_filter.mpr ⟨hm', by rw [hk']; exact ha'⟩
    rw [List.map_eq_nil_iff] at he
    rw [he] at this
    cases this
  have hnone : Dict.get? (run [] (a :: hist)) id = none := by
    rw [Dict.get?_eq_none_iff, hr, hkeys hist _ hne, ← Dict.get?_eq_none_iff]
    cases hg : Dict.get? (create a metas) id with
    | none => rfl
    | some c =>
      obtain ⟨m', hm', hi', used, hu, -⟩ := (create_spec a metas (by decide) id c).mp hg
      have := metas_ids m hm m' hm' (hi.trans hi'.symm)
      subst this
      rw [hk] at hu
      unfold Dict.has at ha
      rw [hu] at ha
      cases ha
  refine ⟨hnone, ?_⟩
  unfold reset
  rw [hnone]

/-- C40: resetting a part names it to the device as it reports it, without "_time". -/
theorem C40_reset (shared : List (String × Consumable)) (id key : String) (hours : Int) (c : Consumable) (hp : Part id key hours)
    (h : Dict.get? shared id = some c) (hc : c.info.dataKey = key) :
    ∃ name, key = name ++ "_time" ∧ reset shared id = .ok ⟨"", "resetConsumablesTime", [("reset_list", .arr [.str name])]⟩ := by
  unfold reset
  rw [h]
  simp only
  rw [hc]
  unfold Part at hp
  simp only [List.mem_cons, List.not_mem_nil, or_false, Prod.mk.injEq] at hp
  rcases hp with ⟨-, h2, -⟩ | ⟨-, h2, -⟩ | ⟨-, h2, -⟩ | ⟨-, h2, -⟩ | ⟨-, h2, -⟩ <;> subst h2
  · exact ⟨"roll_brush", by decide, by rw [show removeSuffix "roll_brush_time" = "roll_brush" by decide +kernel]⟩
  · exact ⟨"edge_brush", by decide, by rw [show removeSuffix "edge_brush_time" = "edge_brush" by decide +kernel]⟩
  · exact ⟨"filter", by decide, by rw [show removeSuffix "filter_time" = "filter" by decide +kernel]⟩
  · exact ⟨"sensor", by decide, by rw [show removeSuffix "sensor_time" = "sensor" by decide +kernel]⟩
  · exact ⟨"charge_contact", by decide, by rw [show removeSuffix "charge_contact_time" = "charge_contact" by decide +kernel]⟩

/-! ### Examples -/

def vacA : Data := [("filter_time", 60), ("sensor_time", 10)]
def vacB : Data := [("filter_time", 7), ("sensor_time", 1000)]
example : SameParts vacA vacB := by unfold SameParts; decide +kernel
example : (Dict.get? (run [] [vacA]) "filter").map (·.used) = some 60 ∧ (Dict.get? (run [] [vacA, vacB]) "filter").map (·.used) = some 7 := by
  decide +kernel
example : Part "filter" "filter_time" 200 := by simp [Part]
example : (update (run [] [vacA]) [("filter_time", 1)]).1.isOk = false := by decide +kernel

end Kasa.Consumables
