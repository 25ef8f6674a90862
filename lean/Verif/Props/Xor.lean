import Verif.Lemmas.Xor
import Verif.Spec.Xor
/-!
# C01, C02: the legacy cipher and its framing
-/

namespace Kasa.Xor
open XorSpec

/-- C01: a payload that fits is encrypted to exactly the specified frame ... -/
theorem C01_encrypt_eq_frame (p : Bytes) (h : p.length < 2 ^ 32) : encrypt p = some (frame p) := by
  have h1 : xorPayload p = cipherBytes p := by
    apply List.ext_getElem
    · simp [xorPayload, cipherBytes, xorPayloadFrom_length]
    · intro i h1 h2
      have hi : i < p.length := by simpa [xorPayload, xorPayloadFrom_length] using h1
      simp only [xorPayload, cipherBytes, List.getElem_map, List.getElem_range]
      rw [xorPayloadFrom_getElem _ _ _ hi]
      rfl
  simp only [encrypt, packU32, h, if_true, h1]
  rfl

/-- C01: ... and a payload that does not fit is refused; these are the only two cases. -/
theorem C01_encrypt_refuses (p : Bytes) : encrypt p = none ↔ 2 ^ 32 ≤ p.length := by
  unfold encrypt packU32
  by_cases h : p.length < 2 ^ 32
  · simp [h]
  · simp [h]; omega

/-- C01: the receiver recovers the payload: the first four bytes announce the number of the remaining
bytes, and decrypting those gives the payload. -/
theorem C01_round_trip (p c : Bytes) (h : encrypt p = some c) :
    beValue (c.take 4) = p.length ∧ (c.drop 4).length = p.length ∧ decrypt (c.drop 4) = p := by
  unfold encrypt packU32 at h
  by_cases hl : p.length < 2 ^ 32
  · simp only [hl, if_true, Option.some.injEq] at h
    subst h
    have ht : (be32 p.length ++ xorPayload p).take 4 = be32 p.length := rfl
    have hd : (be32 p.length ++ xorPayload p).drop 4 = xorPayload p := rfl
    rw [ht, hd]
    exact ⟨beValue_be32 hl, xorPayloadFrom_length _ _, dec_enc _ _⟩
  · simp [hl] at h

/-- C01: every byte string is the cipher text of exactly one payload: decrypting and encrypting again
reproduces the cipher bytes. -/
theorem C01_decrypt_bijective (c : Bytes) :
    ∃ p, cipherBytes p = c ∧ decrypt c = p ∧ ∀ q, cipherBytes q = c → q = p := by
  have key : ∀ q : Bytes, cipherBytes q = xorPayload q := by
    intro p
    symm
    apply List.ext_getElem
    · simp [xorPayload, cipherBytes, xorPayloadFrom_length]
    · intro i h1 h2
      have hi : i < p.length := by simpa [xorPayload, xorPayloadFrom_length] using h1
      simp only [xorPayload, cipherBytes, List.getElem_map, List.getElem_range]
      rw [xorPayloadFrom_getElem _ _ _ hi]
      rfl
  refine ⟨decrypt c, ?_, rfl, ?_⟩
  · rw [key]; exact enc_dec _ _
  · intro q hq
    rw [key] at hq
    rw [← hq]
    exact (dec_enc _ _).symm

/-- Non-vacuity of C01: a concrete three-byte request. -/
example : encrypt [0x7b, 0x22, 0x7d] = some [0, 0, 0, 3, 0xd0, 0xf2, 0x8f] := by decide

/-- C02: one read consumes exactly one frame of the byte stream, however it is segmented. -/
theorem C02_read_one (p rest : Bytes) (hp : p.length < 2 ^ 32) (r : Reader)
    (h : r.buffer ++ r.segments.flatten = frame p ++ rest) :
    ∃ r', readMessage r = some (p, r') ∧ r'.buffer ++ r'.segments.flatten = rest := by
  have hf := C01_encrypt_eq_frame p hp
  obtain ⟨hlen, hdl, hdec⟩ := C01_round_trip p (frame p) hf
  have hfl : 4 ≤ (frame p).length := by simp [frame]
  have h4 : blockSize ≤ (r.buffer ++ r.segments.flatten).length := by
    rw [h]; simp [blockSize]; omega
  obtain ⟨r1, e1, b1⟩ := (readExactly_eq blockSize r.buffer r.segments).1 h4
  have b1' : r1.buffer ++ r1.segments.flatten = (frame p).drop 4 ++ rest := by
    have := b1
    rw [h] at this
    simp only [Reader.bytes, blockSize] at this
    rw [this, List.drop_append_of_le_length hfl]
  have t1 : (r.buffer ++ r.segments.flatten).take blockSize = (frame p).take 4 := by
    rw [h]; exact List.take_append_of_le_length hfl
  have hl2 : p.length ≤ (r1.buffer ++ r1.segments.flatten).length := by
    rw [b1']; simp only [List.length_append, hdl]; omega
  obtain ⟨r2, e2, b2⟩ := (readExactly_eq p.length r1.buffer r1.segments).1 hl2
  refine ⟨r2, ?_, ?_⟩
  · unfold readMessage
    rw [e1]
    simp only [t1, hlen]
    rw [e2]
    simp only [b1']
    rw [List.take_append_of_le_length (by omega), List.take_of_length_le (by omega), hdec]
  · have := b2
    simp only [Reader.bytes] at this
    rw [this, b1', List.drop_append_of_le_length (by omega), List.drop_of_length_le (by omega)]
    rfl

/-- C02: for every list of messages and every segmentation of their concatenated frames, reading as many
messages as were written gives exactly the written messages in order and leaves nothing behind. -/
theorem C02_read_all (msgs : List Bytes) (hm : ∀ m ∈ msgs, m.length < 2 ^ 32) (segs : List Bytes)
    (h : segs.flatten = (msgs.map frame).flatten) :
    ∃ r', readMessages msgs.length ⟨[], segs⟩ = some (msgs, r') ∧
      r'.buffer ++ r'.segments.flatten = [] := by
  have gen : ∀ (msgs : List Bytes) (r : Reader), (∀ m ∈ msgs, m.length < 2 ^ 32) →
      r.buffer ++ r.segments.flatten = (msgs.map frame).flatten →
      ∃ r', readMessages msgs.length r = some (msgs, r') ∧
        r'.buffer ++ r'.segments.flatten = [] := by
    intro msgs
    induction msgs with
    | nil => intro r _ h; exact ⟨r, rfl, by simpa using h⟩
    | cons m ms ih =>
      intro r hm h
      simp only [List.map_cons, List.flatten_cons] at h
      obtain ⟨r1, e1, b1⟩ := C02_read_one m _ (hm m (by simp)) r h
      obtain ⟨r2, e2, b2⟩ := ih r1 (fun x hx => hm x (by simp [hx])) b1
      refine ⟨r2, ?_, b2⟩
      simp [readMessages, e1, e2]
  exact gen msgs ⟨[], segs⟩ hm (by simpa using h)

/-- C02: a stream that ends inside a frame is reported as a failure: if all the stream still holds is a
proper prefix of a frame, the read fails. -/
theorem C02_truncated_fails (p : Bytes) (hp : p.length < 2 ^ 32) (cut : Nat)
    (hcut : cut < (frame p).length) (r : Reader)
    (h : r.buffer ++ r.segments.flatten = (frame p).take cut) : readMessage r = none := by
  have hf := C01_encrypt_eq_frame p hp
  obtain ⟨hlen, hdl, hdec⟩ := C01_round_trip p (frame p) hf
  have hfl : (frame p).length = 4 + p.length := by
    have : (frame p).length = 4 + ((frame p).drop 4).length := by
      simp only [List.length_drop]
      have : 4 ≤ (frame p).length := by simp [frame]
      omega
    rw [this, hdl]
  have hlen_r : (r.buffer ++ r.segments.flatten).length = cut := by
    rw [h, List.length_take]; omega
  unfold readMessage
  by_cases h4 : blockSize ≤ (r.buffer ++ r.segments.flatten).length
  · obtain ⟨r1, e1, b1⟩ := (readExactly_eq blockSize r.buffer r.segments).1 h4
    have hc4 : 4 ≤ cut := by rw [hlen_r] at h4; exact h4
    have t1 : (r.buffer ++ r.segments.flatten).take blockSize = (frame p).take 4 := by
      rw [h, List.take_take]; simp [blockSize, hc4]
    rw [e1]
    simp only [t1, hlen]
    have hl1 : (r1.buffer ++ r1.segments.flatten).length < p.length := by
      have := congrArg List.length b1
      simp only [Reader.bytes] at this
      rw [this, List.length_drop, hlen_r]
      simp only [blockSize]
      omega
    rw [(readExactly_eq p.length r1.buffer r1.segments).2 hl1]
  · rw [(readExactly_eq blockSize r.buffer r.segments).2 (by omega)]

/-- C02: whatever bytes arrive, a message that is returned has exactly the announced length: it is never
shortened. -/
theorem C02_never_short (r r' : Reader) (m : Bytes) (h : readMessage r = some (m, r')) :
    m.length = beValue ((r.buffer ++ r.segments.flatten).take 4) ∧
    r'.buffer ++ r'.segments.flatten = (r.buffer ++ r.segments.flatten).drop (4 + m.length) := by
  unfold readMessage at h
  by_cases h4 : blockSize ≤ (r.buffer ++ r.segments.flatten).length
  · obtain ⟨r1, e1, b1⟩ := (readExactly_eq blockSize r.buffer r.segments).1 h4
    rw [e1] at h
    simp only at h
    generalize hn : beValue ((r.buffer ++ r.segments.flatten).take blockSize) = n at h
    by_cases hl1 : n ≤ (r1.buffer ++ r1.segments.flatten).length
    · obtain ⟨r2, e2, b2⟩ := (readExactly_eq n r1.buffer r1.segments).1 hl1
      rw [e2] at h
      simp only [Option.some.injEq, Prod.mk.injEq] at h
      obtain ⟨hm, hr⟩ := h
      subst hr
      have hml : m.length = n := by
        rw [← hm]
        simp only [decrypt, xorEncryptedPayloadFrom_length, List.length_take]
        omega
      refine ⟨?_, ?_⟩
      · rw [hml, ← hn]; rfl
      · simp only [Reader.bytes] at b1 b2
        rw [b2, b1, List.drop_drop, hml]; rfl
    · rw [(readExactly_eq n r1.buffer r1.segments).2 (by omega)] at h
      simp at h
  · rw [(readExactly_eq blockSize r.buffer r.segments).2 (by omega)] at h
    simp at h

/-- Non-vacuity of C02: two messages whose frames arrive in four odd segments. -/
example : ([[0, 0, 0], [1, 0xaa, 0, 0, 0, 2], [], [0xa9, 0xaa]] : List Bytes).flatten
    = ([[1], [2, 3]].map frame).flatten := by decide

end Kasa.Xor
