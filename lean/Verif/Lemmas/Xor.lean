import Verif.Model.Xor

namespace Kasa.Xor

theorem xorPayloadFrom_length (k : UInt8) (p : Bytes) : (xorPayloadFrom k p).length = p.length := by
  induction p generalizing k with
  | nil => rfl
  | cons b bs ih => simp [xorPayloadFrom, ih]

theorem xorEncryptedPayloadFrom_length (k : UInt8) (p : Bytes) :
    (xorEncryptedPayloadFrom k p).length = p.length := by
  induction p generalizing k with
  | nil => rfl
  | cons b bs ih => simp [xorEncryptedPayloadFrom, ih]

theorem xor_cancel (a b : UInt8) : a ^^^ (a ^^^ b) = b := by
  rw [← UInt8.xor_assoc]; simp

theorem dec_enc (k : UInt8) (p : Bytes) : xorEncryptedPayloadFrom k (xorPayloadFrom k p) = p := by
  induction p generalizing k with
  | nil => rfl
  | cons b bs ih => simp [xorPayloadFrom, xorEncryptedPayloadFrom, ih, xor_cancel]

theorem enc_dec (k : UInt8) (c : Bytes) : xorPayloadFrom k (xorEncryptedPayloadFrom k c) = c := by
  induction c generalizing k with
  | nil => rfl
  | cons b bs ih => simp [xorPayloadFrom, xorEncryptedPayloadFrom, ih, xor_cancel]

theorem xorPayloadFrom_getElem (k : UInt8) (p : Bytes) (i : Nat) (h : i < p.length) :
    (xorPayloadFrom k p)[i]'(by rw [xorPayloadFrom_length]; exact h) =
      (p.take (i + 1)).foldl (· ^^^ ·) k := by
  induction p generalizing k i with
  | nil => simp at h
  | cons b bs ih =>
    cases i with
    | zero => simp [xorPayloadFrom]
    | succ i =>
      simp only [List.length_cons, Nat.add_lt_add_iff_right] at h
      simp only [xorPayloadFrom, List.getElem_cons_succ, List.take_succ_cons, List.foldl_cons]
      exact ih _ _ h

/-- All bytes a reader will ever deliver. -/
def Reader.bytes (r : Reader) : Bytes := r.buffer ++ r.segments.flatten

theorem readExactly_eq (n : Nat) (buf : Bytes) (segs : List Bytes) :
    (n ≤ (buf ++ segs.flatten).length →
      ∃ r', readExactly n buf segs = some ((buf ++ segs.flatten).take n, r') ∧
        r'.bytes = (buf ++ segs.flatten).drop n) ∧
    ((buf ++ segs.flatten).length < n → readExactly n buf segs = none) := by
  induction segs generalizing buf with
  | nil =>
    constructor
    · intro h
      simp only [List.flatten_nil, List.append_nil] at h
      simp [readExactly, h, Reader.bytes]
    · intro h
      simp only [List.flatten_nil, List.append_nil] at h
      simp [readExactly, Nat.not_le.mpr h]
  | cons s rest ih =>
    have hih := ih (buf ++ s)
    simp only [List.append_assoc] at hih
    constructor
    · intro h
      by_cases hb : n ≤ buf.length
      · refine ⟨⟨buf.drop n, s :: rest⟩, ?_, ?_⟩
        · simp [readExactly, hb, List.take_append_of_le_length]
        · simp [Reader.bytes, List.drop_append_of_le_length hb]
      · simp only [readExactly, hb, if_false, List.flatten_cons]
        apply hih.1
        simpa using h
    · intro h
      have hb : ¬ n ≤ buf.length := by simp at h; omega
      simp only [readExactly, hb, if_false]
      apply hih.2
      simpa using h

end Kasa.Xor
