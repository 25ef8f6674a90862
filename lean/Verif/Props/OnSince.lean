import Verif.Spec.OnSince
/-!
# C37: when a device was turned on
-/

namespace Kasa.OnSince

open OnSinceSpec

theorem read_none {cached : Option Int} {r : Reading} (h : turnedOn r = none) : read cached r = none := by
  unfold turnedOn at h
  unfold read
  cases hr : r.on with
  | false => rfl
  | true =>
    rw [hr] at h
    cases ht : r.onTime with
    | none => rfl
    | some t => rw [ht] at h; cases h

theorem read_some {cached : Option Int} {r : Reading} {t : Int} (h : turnedOn r = some t) :
    read cached r = some (keepOrReplace cached t) := by
  unfold turnedOn at h
  unfold read
  cases hr : r.on with
  | false => rw [hr] at h; cases h
  | true =>
    rw [hr] at h
    cases ht : r.onTime with
    | none => rw [ht] at h; cases h
    | some u => rw [ht] at h; cases h; rfl

/-- C37: nothing is returned exactly when the device is off (or does not say how long it is on). -/
theorem C37_off (cached : Option Int) (r : Reading) : read cached r = none ↔ turnedOn r = none := by
  constructor
  · intro h
    cases ht : turnedOn r with
    | none => rfl
    | some t => rw [read_some ht] at h; cases h
  · exact read_none

theorem C37_off_device (cached : Option Int) (r : Reading) (h : r.on = false) : read cached r = none :=
  (C37_off cached r).mpr (by unfold turnedOn; rw [h]; rfl)

/-- C37: what is returned is at most five seconds before the time computed from the last update; and it is at most five
seconds away from it unless the computed time went back.  Partial: see `C37_stale`. -/
theorem C37_close_partial (cached : Option Int) (r : Reading) (t : Int) (h : turnedOn r = some t) :
    ∃ v, read cached r = some v ∧ t - v ≤ 5000000 ∧ ((∀ c, cached = some c → c ≤ t) → Close v t) := by
  rw [read_some h]
  refine ⟨_, rfl, ?_⟩
  unfold keepOrReplace Close second
  cases cached with
  | none => simp
  | some c =>
    simp only [Option.some.injEq]
    split
    · refine ⟨by omega, fun _ => ⟨by omega, by omega⟩⟩
    · refine ⟨by omega, fun h => ?_⟩
      have := h c rfl
      omega

/-- C37: over every history since the device was off, if the computed times never went back, what is returned is at most
five seconds away from the last one. -/
theorem C37_history_partial (rs : List Reading) (r : Reading) (t : Int)
    (hs : (rs ++ [r]).Pairwise (fun a b => ∀ x y, turnedOn a = some x → turnedOn b = some y → x ≤ y))
    (h : turnedOn r = some t) : ∃ v, reads none (rs ++ [r]) = some v ∧ Close v t := by
  have key : ∀ (rs : List Reading) (c : Option Int),
      ∀ v, reads c rs = some v → (c = some v ∨ ∃ a ∈ rs, turnedOn a = some v) := by
    intro rs
    induction rs with
    | nil => intro c v hv; exact Or.inl hv
    | cons a rs ih =>
      intro c v hv
      rcases ih (read c a) v hv with h1 | ⟨b, hb, h1⟩
      · cases ht : turnedOn a with
        | none => rw [read_none ht] at h1; cases h1
        | some x =>
          rw [read_some ht] at h1
          unfold keepOrReplace at h1
          cases c with
          | none => exact Or.inr ⟨a, List.mem_cons_self, by rw [ht]; exact h1⟩
          | some c =>
            simp only at h1
            split at h1
            · exact Or.inr ⟨a, List.mem_cons_self, by rw [ht]; exact h1⟩
            · exact Or.inl h1
      · exact Or.inr ⟨b, List.mem_cons_of_mem _ hb, h1⟩
  have hr : reads none (rs ++ [r]) = read (reads none rs) r := by unfold reads; rw [List.foldl_append]; rfl
  rw [hr]
  obtain ⟨v, h1, -, h3⟩ := C37_close_partial (reads none rs) r t h
  refine ⟨v, h1, h3 ?_⟩
  intro c hc
  rcases key rs none c hc with h4 | ⟨a, ha, h4⟩
  · cases h4
  · rw [List.pairwise_append] at hs
    exact hs.2.2 a ha r (List.mem_singleton_self r) c t h4 h

/-- C37: while the computed times stay within five seconds of what was returned, it does not change. -/
theorem C37_stable (v : Int) (rs : List Reading) (h : ∀ r ∈ rs, ∃ t, turnedOn r = some t ∧ Close t v) :
    reads (some v) rs = some v := by
  induction rs with
  | nil => rfl
  | cons r rs ih =>
    obtain ⟨t, ht, hc⟩ := h r List.mem_cons_self
    unfold Close at hc
    show reads (read (some v) r) rs = some v
    rw [read_some ht]
    have : keepOrReplace (some v) t = v := by
      unfold keepOrReplace second
      simp only
      rw [if_neg]
      omega
    rw [this]
    exact ih fun r hr => h r (List.mem_cons_of_mem _ hr)

/-- C37: a device that was turned on again more than five seconds after the time returned last has the new time. -/
theorem C37_new (v : Int) (r : Reading) (t : Int) (h : turnedOn r = some t) (hv : t - v > 5000000) :
    read (some v) r = some t := by
  rw [read_some h]
  unfold keepOrReplace second
  simp only
  rw [if_pos]
  omega

/-- C37 fails when the computed time goes back, however far (the clock of the device was wrong at the first update and is
right now): the old value is returned. -/
theorem C37_stale (v : Int) (r : Reading) (t : Int) (h : turnedOn r = some t) (hv : t ≤ v) : read (some v) r = some v := by
  rw [read_some h]
  unfold keepOrReplace second
  simp only
  rw [if_neg]
  omega

example : ∃ (v : Int) (r : Reading) (t : Int), turnedOn r = some t ∧ read (some v) r = some v ∧ ¬ Close v t := by
  refine ⟨3600000000, ⟨true, some 10, 20000000⟩, 10000000, by decide, ?_, by unfold Close; omega⟩
  exact C37_stale _ _ 10000000 (by decide) (by decide)

/-- Two reads that jitter, and a third after the device was turned off and on. -/
def demo : List Reading := [⟨true, some 10, 100000000⟩, ⟨true, some 12, 105000000⟩, ⟨true, some 1, 200000000⟩]

example : reads none (demo.take 2) = some 90000000 := by decide
example : reads none demo = some 199000000 := by decide
example : ∃ v, reads none demo = some v ∧ Close v 199000000 :=
  C37_history_partial (demo.take 2) ⟨true, some 1, 200000000⟩ 199000000
    (by simp [demo, turnedOn]) (by decide)

end Kasa.OnSince
