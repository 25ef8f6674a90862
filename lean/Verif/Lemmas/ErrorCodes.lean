import Verif.Model.ErrorCodes
import Verif.Spec.ErrorCodes

namespace Kasa.Codes
open CodesSpec

theorem retryable_iff (n : Int) : n ∈ smartRetryableErrors ↔ Retryable n := by
  have : smartRetryableErrors = [1002, 1112, -1001, 9999, -40401, -40413] := by decide +kernel
  rw [this]; simp [Retryable]

theorem authentication_iff (n : Int) : n ∈ smartAuthenticationErrors ↔ Authentication n := by
  have : smartAuthenticationErrors = [-1501, 1111, -1005, 1100, 1003, -40412] := by decide +kernel
  rw [this]; simp [Authentication]

theorem known_eq : smartErrorCodes.map Prod.snd = documented := by decide +kernel

theorem zero_known : (0 : Int) ∈ documented := by decide +kernel

theorem retryable_known {n : Int} (h : Retryable n) : n ∈ documented := by
  unfold Retryable at h
  rcases h with h | h | h | h | h | h <;> subst h <;> decide +kernel

theorem authentication_known {n : Int} (h : Authentication n) : n ∈ documented := by
  unfold Authentication at h
  rcases h with h | h | h | h | h | h <;> subst h <;> decide +kernel

theorem unknown_plain : ¬ Retryable (-100000) ∧ ¬ Authentication (-100000) := by
  constructor <;> decide +kernel

theorem readCode_num (n : Int) : readCode (some (.num n)) = .ok (reported n) := by
  unfold readCode fromInt lookupInt reported
  rw [known_eq]
  by_cases h : n ∈ documented <;> simp [h, internalUnknownError]

theorem reported_zero_iff (n : Int) : reported n = 0 ↔ n = 0 := by
  unfold reported
  by_cases h : n ∈ documented
  · simp [h]
  · simp only [h, if_false]
    constructor
    · intro h; omega
    · rintro rfl; exact absurd zero_known h

theorem classify_reported (n : Int) (h0 : n ≠ 0) : (.error (classify (reported n)) : Except Exc Unit) = expected n := by
  unfold classify expected
  simp only [retryable_iff, authentication_iff, h0, if_false]
  by_cases h : n ∈ documented
  · have hr : reported n = n := by simp [reported, h]
    rw [hr]
    by_cases h1 : Retryable n
    · simp [h1]
    · by_cases h2 : Authentication n <;> simp [h1, h2]
  · have hr : reported n = -100000 := by simp [reported, h]
    have h1 : ¬ Retryable n := fun hh => h (retryable_known hh)
    have h2 : ¬ Authentication n := fun hh => h (authentication_known hh)
    rw [hr]
    simp [h1, h2, unknown_plain.1, unknown_plain.2]

end Kasa.Codes
