import Verif.Py.Num
/-!
# Facts about comparing numbers
-/

namespace Kasa

/-- A finite number within bounds. -/
def InRange (x : Num) (lo hi : Rat) : Prop := ∃ r, x.value = some r ∧ lo ≤ r ∧ r ≤ hi

theorem Num.between_iff (x : Num) (lo hi : Rat) (h : x.isNumber = true) :
    ∃ b, x.between lo hi = .ok b ∧ (b = true ↔ InRange x lo hi) := by
  have key : ∀ y : Rat, (∃ b, (do if (decide (y < lo)) then pure false else if (decide (hi < y)) then pure false else pure true : Except Exc Bool) = .ok b ∧
      (b = true ↔ (lo ≤ y ∧ y ≤ hi))) := by
    intro y
    by_cases h1 : y < lo
    · exact ⟨false, by simp [h1]; rfl, by simp; grind⟩
    · by_cases h2 : hi < y
      · exact ⟨false, by simp [h1, h2]; rfl, by simp; grind⟩
      · exact ⟨true, by simp [h1, h2]; rfl, by simp; grind⟩
  cases x with
  | int n =>
    obtain ⟨b, h1, h2⟩ := key n
    exact ⟨b, h1, h2.trans ⟨fun h => ⟨n, rfl, h⟩, fun ⟨r, hr, h⟩ => by cases hr; exact h⟩⟩
  | bool c =>
    obtain ⟨b, h1, h2⟩ := key (if c then 1 else 0)
    exact ⟨b, h1, h2.trans ⟨fun h => ⟨_, rfl, h⟩, fun ⟨r, hr, h⟩ => by cases hr; exact h⟩⟩
  | float y =>
    obtain ⟨b, h1, h2⟩ := key y
    exact ⟨b, h1, h2.trans ⟨fun h => ⟨y, rfl, h⟩, fun ⟨r, hr, h⟩ => by cases hr; exact h⟩⟩
  | inf p =>
    refine ⟨false, by cases p <;> rfl, ?_⟩
    constructor
    · intro h; cases h
    · rintro ⟨r, hr, -⟩; cases hr
  | nan =>
    refine ⟨false, rfl, ?_⟩
    constructor
    · intro h; cases h
    · rintro ⟨r, hr, -⟩; cases hr
  | other t => cases h

/-- `refuseOutside` lets numbers in the range through, and NaN. -/
theorem refuseOutside_ok_iff (x : Num) (lo hi : Rat) (e : Exc) :
    refuseOutside x lo hi e = .ok () ↔ x = .nan ∨ InRange x lo hi := by
  have key : ∀ y : Rat, ((do if (decide (y < lo)) then .error e else if (decide (hi < y)) then .error e else pure () : Except Exc Unit) = .ok ()) ↔
      (lo ≤ y ∧ y ≤ hi) := by
    intro y
    by_cases h1 : y < lo
    · constructor
      · intro h; simp [h1] at h
      · intro h; grind
    · by_cases h2 : hi < y
      · constructor
        · intro h; simp [h1, h2] at h
        · intro h; grind
      · constructor
        · intro _; grind
        · intro _; simp [h1, h2]; rfl
  unfold InRange
  cases x with
  | int n => exact (key n).trans ⟨fun h => Or.inr ⟨_, rfl, h⟩, by rintro (h | ⟨r, hr, h⟩); cases h; cases hr; exact h⟩
  | bool c => exact (key (if c then 1 else 0)).trans ⟨fun h => Or.inr ⟨_, rfl, h⟩, by rintro (h | ⟨r, hr, h⟩); cases h; cases hr; exact h⟩
  | float y => exact (key y).trans ⟨fun h => Or.inr ⟨_, rfl, h⟩, by rintro (h | ⟨r, hr, h⟩); cases h; cases hr; exact h⟩
  | inf p =>
    constructor
    · intro h; cases p <;> cases h
    · rintro (h | ⟨r, hr, -⟩)
      · cases h
      · cases hr
  | nan => exact ⟨fun _ => Or.inl rfl, fun _ => rfl⟩
  | other t =>
    constructor
    · intro h; cases h
    · rintro (h | ⟨r, hr, -⟩)
      · cases h
      · cases hr

/-- What `refuseOutside` does not let through raises. -/
theorem refuseOutside_error {x : Num} {lo hi : Rat} {e : Exc} (h1 : x ≠ .nan) (h2 : ¬ InRange x lo hi) :
    ∃ e', refuseOutside x lo hi e = .error e' ∧ (x.isNumber = true → e' = e) := by
  have hn : ¬ refuseOutside x lo hi e = .ok () := fun h => by
    rcases (refuseOutside_ok_iff x lo hi e).mp h with h | h
    · exact h1 h
    · exact h2 h
  cases hr : refuseOutside x lo hi e with
  | ok u => exact absurd hr hn
  | error e' =>
    refine ⟨e', rfl, ?_⟩
    intro hx
    have key : ∀ (b c : Bool) (e' : Exc), (do if b then .error e else if c then .error e else pure () : Except Exc Unit) = .error e' → e' = e := by
      intro b c e' h
      cases b <;> cases c <;> cases h <;> rfl
    cases x with
    | int n => exact key _ _ _ hr
    | bool c => exact key _ _ _ hr
    | float y => exact key _ _ _ hr
    | inf p => exact key _ _ _ hr
    | nan => exact absurd rfl h1
    | other t => cases hx

/-- A finite number is greater than a bound or not. -/
theorem Num.gt_of_value {x : Num} {r : Rat} (h : x.value = some r) (b : Rat) : x.gt b = .ok (decide (b < r)) := by
  cases x <;> cases h <;> rfl

theorem Num.lt_of_value {x : Num} {r : Rat} (h : x.value = some r) (b : Rat) : x.lt b = .ok (decide (r < b)) := by
  cases x <;> cases h <;> rfl

theorem Num.le_of_value {x : Num} {r : Rat} (h : x.value = some r) (b : Rat) : x.le b = .ok (decide (r ≤ b)) := by
  unfold Num.le
  rw [Num.lt_of_value h]
  by_cases h1 : r < b
  · have h2 : r ≤ b := by grind
    simp only [bind, Except.bind, h1, h2, decide_true, if_true]
    rfl
  · unfold Num.eq
    rw [h]
    by_cases h2 : r = b
    · subst h2
      simp only [bind, Except.bind, h1, decide_false]
      have : r ≤ r := by grind
      simp [this]
      rfl
    · have h3 : ¬ r ≤ b := by grind
      simp only [bind, Except.bind, h1, decide_false, h3]
      simp [h2]
      rfl

theorem Num.eq_zero_iff (x : Num) (b : Rat) : x.eq b = true ↔ x.value = some b := by
  unfold Num.eq
  exact decide_eq_true_iff

theorem Num.isNumber_of_isInt {x : Num} (h : x.isInt = true) : x.isNumber = true := by
  cases x <;> first | rfl | cases h

end Kasa
