import Verif.Lemmas.ErrorCodes
/-!
# C09: SMART error codes are classified the same way everywhere
-/

namespace Kasa.Codes
open CodesSpec

/-- C09: the SMART and camera protocols treat every integer error code as specified. -/
theorem C09_protocol (n : Int) : protocolCheck (some (.num n)) = expected n := by
  unfold protocolCheck
  rw [readCode_num]
  simp only
  by_cases h0 : n = 0
  · subst h0; simp [(reported_zero_iff 0).mpr rfl, expected]
  · have : reported n ≠ 0 := fun h => h0 ((reported_zero_iff n).mp h)
    simp only [this, if_false]
    exact classify_reported n h0

/-- C09: in multi-requests, where an error does not raise, the reported entry is the (reported) error code, and
never a success, for every non-zero code. -/
theorem C09_protocol_entry (n : Int) :
    protocolCheckNoRaise (some (.num n)) = .ok (if n = 0 then none else some (reported n)) := by
  unfold protocolCheckNoRaise
  rw [readCode_num]
  simp only
  by_cases h0 : n = 0
  · subst h0; simp [(reported_zero_iff 0).mpr rfl]
  · have : reported n ≠ 0 := fun h => h0 ((reported_zero_iff n).mp h)
    simp [this, h0]

/-- C09: the AES and camera transports treat every integer error code as specified; an authentication error, and
nothing else, makes a new handshake necessary. -/
theorem C09_aes (n : Int) (handshakeRequired : Bool) :
    (aesCheck (some (.num n)) handshakeRequired).1 = expected n ∧
    (aesCheck (some (.num n)) handshakeRequired).2 = (handshakeRequired || decide (Authentication n)) := by
  unfold aesCheck
  rw [readCode_num]
  simp only
  by_cases h0 : n = 0
  · subst h0
    have : ¬ Authentication 0 := by decide +kernel
    simp [(reported_zero_iff 0).mpr rfl, expected, this]
  · have : reported n ≠ 0 := fun h => h0 ((reported_zero_iff n).mp h)
    have hcl := classify_reported n h0
    simp only [this, if_false]
    have hdisj : Authentication n → ¬ Retryable n := by
      unfold Authentication Retryable; omega
    by_cases h1 : Retryable n
    · have h2 : ¬ Authentication n := fun h => hdisj h h1
      have : classify (reported n) = .retryable (some n) := by
        simpa [expected, h0, h1] using hcl
      simp [this, expected, h0, h1, h2]
    · by_cases h2 : Authentication n
      · have : classify (reported n) = .auth (some n) := by
          simpa [expected, h0, h1, h2] using hcl
        simp [this, expected, h0, h1, h2]
      · have : classify (reported n) = .device (some (reported n)) := by
          simpa [expected, h0, h1, h2] using hcl
        simp [this, expected, h0, h1, h2]

/-- C09: the two lists the classification rests on do not overlap, so the order of the checks is immaterial. -/
theorem C09_disjoint (n : Int) : ¬ (Retryable n ∧ Authentication n) := by
  unfold Retryable Authentication; omega

/-- C09: whatever value a response carries as its error code (absent, null, a string, a boolean, an integer), the
check either succeeds or raises a library exception; and it succeeds only for 0 (or `false`).  The exception is an
unhashable value (a list or an object), see `C09_unhashable_code_escapes`. -/
theorem C09_any_json_partial (raw : Option Json) (hraw : ∀ xs, raw ≠ some (.arr xs)) (hraw' : ∀ kvs, raw ≠ some (.obj kvs)) :
    (∀ e, protocolCheck raw = .error e → e.isKasa = true) ∧
    (protocolCheck raw = .ok () → raw = some (.num 0) ∨ raw = some (.bool false)) := by
  have hk : ∀ c, (classify c).isKasa = true := by
    intro c; unfold classify; split
    · rfl
    · split <;> rfl
  have hunk : protocolCheck none = .error (classify internalUnknownError) := by
    simp [protocolCheck, readCode, fromInt, internalUnknownError]
  cases raw with
  | none => rw [hunk]; constructor
            · intro e he; cases he; exact hk _
            · intro h; cases h
  | some j =>
    cases j with
    | null => constructor
              · intro e he; have : protocolCheck (some .null) = protocolCheck none := rfl
                rw [this, hunk] at he; cases he; exact hk _
              · intro h; have : protocolCheck (some .null) = protocolCheck none := rfl
                rw [this, hunk] at h; cases h
    | str s => constructor
               · intro e he; have : protocolCheck (some (.str s)) = protocolCheck none := rfl
                 rw [this, hunk] at he; cases he; exact hk _
               · intro h; have : protocolCheck (some (.str s)) = protocolCheck none := rfl
                 rw [this, hunk] at h; cases h
    | num n =>
      rw [C09_protocol]
      unfold expected
      by_cases h0 : n = 0
      · simp [h0]
      · constructor
        · intro e he
          simp only [h0, if_false] at he
          by_cases h1 : Retryable n
          · simp only [h1, if_true] at he; cases he; rfl
          · by_cases h2 : Authentication n
            · simp only [h1, h2, if_true, if_false] at he; cases he; rfl
            · simp only [h1, h2, if_false] at he; cases he; rfl
        · intro he
          simp only [h0, if_false] at he
          by_cases h1 : Retryable n
          · simp [h1] at he
          · by_cases h2 : Authentication n
            · simp [h1, h2] at he
            · simp [h1, h2] at he
    | bool b =>
      have hb : protocolCheck (some (.bool b)) = protocolCheck (some (.num (if b then 1 else 0))) := rfl
      rw [hb, C09_protocol]
      cases b with
      | false => constructor
                 · intro e he; cases he
                 · intro _; exact Or.inr rfl
      | true =>
        have : expected 1 = .error (.device (some (-100000))) := by decide +kernel
        simp only [if_true, this]
        constructor
        · intro e he; cases he; rfl
        · intro h; cases h
    | arr xs => exact absurd rfl (hraw xs)
    | obj kvs => exact absurd rfl (hraw' kvs)

/-- The full C09 fails for the protocols when a response's error code is a JSON list: the caller sees a
`TypeError`, not a library exception. -/
theorem C09_unhashable_code_escapes :
    ∃ raw, ∃ e, protocolCheck raw = .error e ∧ e.isKasa = false :=
  ⟨some (.arr []), _, rfl, rfl⟩

/-- C09 for the SSL transport, for the codes the library has a name for: as specified, and an authentication error
drops the session.  Missing: codes without a name, see `C09_ssl_unknown_code_escapes`. -/
theorem C09_ssl_partial (n : Int) (hn : n ∈ documented) (loginRequired : Bool) :
    (sslCheck (some (.num n)) loginRequired).1 = expected n ∧
    (sslCheck (some (.num n)) loginRequired).2 = (loginRequired || decide (Authentication n)) := by
  have hl : fromInt (some (.num n)) = .code n := by
    unfold fromInt lookupInt; rw [known_eq]; simp [hn]
  have hrep : reported n = n := by simp [reported, hn]
  have haes := C09_aes n loginRequired
  unfold aesCheck at haes
  rw [readCode_num, hrep] at haes
  unfold sslCheck
  rw [hl]
  exact haes

/-- The full C09 fails for the SSL transport: every undocumented code surfaces as `ValueError`, which is not a
library exception (and is therefore neither retried nor followed by a reset). -/
theorem C09_ssl_unknown_code_escapes (n : Int) (hn : n ∉ documented) (loginRequired : Bool) :
    sslCheck (some (.num n)) loginRequired = (.error (.other "ValueError"), loginRequired) := by
  have hl : fromInt (some (.num n)) = .valueError := by
    unfold fromInt lookupInt; rw [known_eq]; simp [hn]
  simp [sslCheck, hl]

/-- Non-vacuity: there are undocumented codes, and documented ones of each class. -/
example : (12345 : Int) ∉ documented ∧ (-1301 : Int) ∈ documented ∧ Retryable 9999 ∧ Authentication (-1501) := by
  decide +kernel

end Kasa.Codes
