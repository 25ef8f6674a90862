import Verif.Model.Linkie
import Verif.Spec.Linkie
import Verif.Lemmas.Xor
/-!
# C62: the camera transport
-/

namespace Kasa.Linkie
open PyM LinkieSpec

/-! ## Helper lemmas -/

theorem xorPayload_eq (p : Bytes) : Xor.xorPayload p = XorSpec.cipherBytes p := by
  apply List.ext_getElem
  · simp [Xor.xorPayload, Xor.xorPayloadFrom_length, XorSpec.cipherBytes]
  · intro i h1 h2
    have hi : i < p.length := by
      simpa [Xor.xorPayload, Xor.xorPayloadFrom_length] using h1
    simp only [Xor.xorPayload, XorSpec.cipherBytes, List.getElem_map, List.getElem_range, XorSpec.cipherByte]
    exact Xor.xorPayloadFrom_getElem _ _ _ hi

theorem decrypt_cipherBytes (p : Bytes) : Xor.decrypt (XorSpec.cipherBytes p) = p := by
  rw [← xorPayload_eq]
  exact Xor.dec_enc _ _

theorem cipherBytes_decrypt (c : Bytes) : XorSpec.cipherBytes (Xor.decrypt c) = c := by
  rw [← xorPayload_eq]
  exact Xor.enc_dec _ _

/-- The characters that base64 uses. -/
def b64Chars : List Char := '=' :: B64.alphabet

theorem quoteChar_b64 : ∀ c ∈ b64Chars,
    quoteChar c = [c] ∧ c ≠ '+' ∧ c ≠ '%' ∧ c ≠ '&' ∧ c.toNat < 128 ∨
    ∃ a ∈ "0123456789ABCDEF".toList, ∃ b ∈ "0123456789ABCDEF".toList, quoteChar c = ['%', a, b] ∧
      (hexValue a).bind (fun x => (hexValue b).map fun y => Char.ofNat (16 * x + y)) = some c := by
  decide +kernel

theorem hex_plain : ∀ a ∈ "0123456789ABCDEF".toList, a ≠ '&' ∧ a.toNat < 128 := by decide +kernel

theorem formText_plain {c : Char} {cs : List Char} (h1 : c ≠ '+') (h2 : c ≠ '%') :
    formText (c :: cs) = (formText cs).map (c :: ·) := by
  rw [formText.eq_4 c cs h1 (fun _ _ _ h => absurd h h2), if_neg h2]

theorem formText_quote (text : List Char) (h : ∀ c ∈ text, c ∈ b64Chars) : formText (quote text) = some text := by
  induction text with
  | nil => rfl
  | cons c cs ih =>
    have ih' := ih fun x hx => h x (List.mem_cons_of_mem _ hx)
    have hq : quote (c :: cs) = quoteChar c ++ quote cs := rfl
    rw [hq]
    rcases quoteChar_b64 c (h c List.mem_cons_self) with ⟨h1, h2, h3, _⟩ | ⟨a, _, b, _, h1, h2⟩
    · rw [h1]
      show formText (c :: quote cs) = _
      rw [formText_plain h2 h3, ih']
      rfl
    · rw [h1]
      show formText ('%' :: a :: b :: quote cs) = _
      unfold formText
      cases ha : hexValue a with
      | none => rw [ha] at h2; cases h2
      | some x =>
        cases hb : hexValue b with
        | none => rw [ha, hb] at h2; cases h2
        | some y =>
          rw [ha, hb] at h2
          simp only [ih', Option.map_some, ha, hb]
          simp only [Option.bind_some, Option.map_some, Option.some.injEq] at h2
          rw [h2]

theorem quote_plain (text : List Char) (h : ∀ c ∈ text, c ∈ b64Chars) :
    ∀ c ∈ quote text, c ≠ '&' ∧ c.toNat < 128 := by
  intro c hc
  obtain ⟨d, hd, hc⟩ := List.mem_flatMap.1 hc
  rcases quoteChar_b64 d (h d hd) with ⟨h1, _, _, h2, h3⟩ | ⟨a, ha, b, hb, h1, _⟩
  · rw [h1] at hc
    simp only [List.mem_cons, List.not_mem_nil, or_false] at hc
    subst hc
    exact ⟨h2, h3⟩
  · rw [h1] at hc
    simp only [List.mem_cons, List.not_mem_nil, or_false] at hc
    rcases hc with rfl | rfl | rfl
    · decide
    · exact hex_plain _ ha
    · exact hex_plain _ hb

theorem content_plain : ∀ c ∈ "content=".toList, c ≠ '&' ∧ c.toNat < 128 := by decide +kernel

theorem splitAll_none {sep : Char} {l : List Char} (h : sep ∉ l) : splitAll sep l = [l] := by
  induction l with
  | nil => rfl
  | cons c cs ih =>
    simp only [List.mem_cons, not_or] at h
    rw [splitAll, if_neg (fun hc => h.1 hc.symm), ih h.2]

theorem chars_ascii (text : List Char) (h : ∀ c ∈ text, c.toNat < 128) :
    (ascii text).map (fun x => Char.ofNat x.toNat) = text := by
  unfold ascii
  rw [List.map_map]
  conv => rhs; rw [← List.map_id text]
  apply List.map_congr_left
  intro c hc
  have := h c hc
  show Char.ofNat (UInt8.ofNat c.toNat).toNat = c
  rw [UInt8.toNat_ofNat', Nat.mod_eq_of_lt (by omega)]
  exact Char.ofNat_toNat c

theorem body_eq (request : String) (h : (utf8 request).length < 2 ^ 32) :
    body request = some (ascii ("content=".toList ++ quote (B64.encode (XorSpec.cipherBytes (utf8 request))))) := by
  unfold body Xor.encrypt packU32
  rw [if_pos h]
  simp only [Option.map_some, xorPayload_eq]
  rfl

theorem mem_b64Chars {b : Bytes} {c : Char} (h : c ∈ B64.encode b) : c ∈ b64Chars :=
  List.mem_cons.2 (B64.mem_encode h)

/-- The body of a request carries it. -/
theorem body_carries (request : String) (h : (utf8 request).length < 2 ^ 32) :
    ∃ b, body request = some b ∧ Carries b request := by
  refine ⟨_, body_eq request h, _, ?_, B64.decode_encode _⟩
  generalize hc : B64.encode (XorSpec.cipherBytes (utf8 request)) = text
  have hmem : ∀ c ∈ text, c ∈ b64Chars := by
    intro c hx; subst hc; exact mem_b64Chars hx
  have hpl := quote_plain text hmem
  have hall : ∀ c ∈ "content=".toList ++ quote text, c ≠ '&' ∧ c.toNat < 128 := by
    intro c hx
    rcases List.mem_append.1 hx with hx | hx
    · exact content_plain c hx
    · exact hpl c hx
  unfold fields
  rw [chars_ascii _ (fun c hx => (hall c hx).2), splitAll_none (fun hx => (hall _ hx).1 rfl)]
  have : nameValue ("content=".toList ++ quote text) = ("content".toList, quote text) := by
    show nameValue ('c' :: 'o' :: 'n' :: 't' :: 'e' :: 'n' :: 't' :: '=' :: quote text) = _
    simp [nameValue, List.takeWhile, List.dropWhile]
  simp only [List.map_cons, List.map_nil, this, formText_quote text hmem]

section
variable {σ : Type} (env : Env σ)

/-- What the environment does to one call: the outcome and what is posted. -/
theorem executeSend_cases (request : String) (h : (utf8 request).length < 2 ^ 32) (s : St σ) :
    (∃ e w, (env.context w).1 = .error e ∧ (executeSend env request s).1 = .error e ∧
      (executeSend env request s).2.posted = s.posted) ∨
    ∃ b w, Carries b request ∧ (executeSend env request s).2.posted = s.posted ++ [b] ∧
      ((∃ e, (env.post b w).1 = .error e ∧ (executeSend env request s).1 = .error e) ∨
       (∃ status r, (env.post b w).1 = .ok (status, r) ∧ status ≠ 200 ∧ (executeSend env request s).1 = .error .kasa) ∨
       ∃ r, (env.post b w).1 = .ok (200, r) ∧
        (executeSend env request s).1 = match readAnswer env r with | some j => .ok j | none => .error .kasa) := by
  obtain ⟨b, hb, hc⟩ := body_carries request h
  unfold executeSend
  simp only [hb]
  have hpost : ∀ s1 : St σ, s1.posted = s.posted → ∃ m : Except Exc Json × St σ,
      exchange env b s1 = m ∧ m.2.posted = s.posted ++ [b] ∧
      ((∃ e, (env.post b s1.world).1 = .error e ∧ m.1 = .error e) ∨
       (∃ status r, (env.post b s1.world).1 = .ok (status, r) ∧ status ≠ 200 ∧ m.1 = .error .kasa) ∨
       ∃ r, (env.post b s1.world).1 = .ok (200, r) ∧
        m.1 = match readAnswer env r with | some j => .ok j | none => .error .kasa) := by
    intro s1 hs1
    refine ⟨_, rfl, ?_⟩
    unfold exchange
    rw [bind_apply]
    unfold post
    cases hp : (env.post b s1.world).1 with
    | error e => exact ⟨by simp only [hs1], .inl ⟨e, rfl, rfl⟩⟩
    | ok v =>
      obtain ⟨status, r⟩ := v
      by_cases h200 : status = 200
      · subst h200
        simp only [ne_eq, not_true_eq_false, if_false]
        cases hr : readAnswer env r with
        | some j =>
          refine ⟨by simp only [pure_apply, hs1], .inr (.inr ⟨r, rfl, ?_⟩)⟩
          rw [hr]
          rfl
        | none =>
          cases env.loadsBytes r with
          | some _ =>
            refine ⟨by simp only [hs1]; rfl, .inr (.inr ⟨r, rfl, ?_⟩)⟩
            rw [hr]
            rfl
          | none =>
            refine ⟨by simp only [hs1]; rfl, .inr (.inr ⟨r, rfl, ?_⟩)⟩
            rw [hr]
            rfl
      · simp only [ne_eq, h200, not_false_eq_true, if_true]
        exact ⟨by simp only [raise, hs1], .inr (.inl ⟨status, r, rfl, h200, rfl⟩)⟩
  have hctx : (∃ e s1, getContext env s = (.error e, s1) ∧ s1.posted = s.posted ∧ (env.context s.world).1 = .error e) ∨
      ∃ s1, getContext env s = (.ok (), s1) ∧ s1.posted = s.posted := by
    have hmake : (∃ e s1, makeContext env s = (.error e, s1) ∧ s1.posted = s.posted ∧
        (env.context s.world).1 = .error e) ∨ ∃ s1, makeContext env s = (.ok (), s1) ∧ s1.posted = s.posted := by
      unfold makeContext
      cases hx : env.context s.world with
      | mk o w =>
        cases o with
        | ok u => exact .inr ⟨_, rfl, rfl⟩
        | error e => exact .inl ⟨e, _, rfl, rfl, rfl⟩
    unfold getContext
    rw [bind_apply, get_apply]
    simp only
    split
    · exact .inr ⟨s, rfl, rfl⟩
    · exact hmake
  rcases hctx with ⟨e, s1, h1, h2, h3⟩ | ⟨s1, h1, h2⟩
  · left
    rw [bind_error h1]
    exact ⟨e, s.world, h3, rfl, h2⟩
  · right
    obtain ⟨m, hm, h4, h5⟩ := hpost s1 h2
    rw [bind_ok h1]
    refine ⟨b, s1.world, hc, ?_, ?_⟩
    · rw [hm]; exact h4
    · rw [hm]; exact h5

theorem send_cases (request : String) (s : St σ) :
    (∃ j, (executeSend env request s).1 = .ok j ∧ send env request s = executeSend env request s) ∨
    ∃ e, (executeSend env request s).1 = .error e ∧
      send env request s = (.error (if e.isException then .retryable none else e), (executeSend env request s).2) := by
  cases hx : executeSend env request s with
  | mk o s1 =>
    cases o with
    | ok j => exact .inl ⟨j, rfl, tryExcept_ok hx⟩
    | error e =>
      refine .inr ⟨e, rfl, ?_⟩
      unfold send
      rw [tryExcept_error hx]
      split <;> rfl

theorem send_posted (request : String) (s : St σ) :
    (send env request s).2.posted = (executeSend env request s).2.posted := by
  rcases send_cases env request s with ⟨_, _, h⟩ | ⟨_, _, h⟩ <;> rw [h]

theorem readAnswer_iff (r : Bytes) (j : Json) :
    readAnswer env r = some j ↔ ∃ text, Answers r text ∧ env.loads text = some j := by
  unfold readAnswer Answers chars
  constructor
  · intro h
    simp only [Option.bind_eq_bind, Option.bind_eq_some_iff] at h
    obtain ⟨c, h1, text, h2, h3⟩ := h
    refine ⟨text, ?_, h3⟩
    rw [h1, utf8_of_fromUtf8 h2, cipherBytes_decrypt]
  · rintro ⟨text, h1, h2⟩
    simp only [h1, Option.bind_eq_bind, Option.bind_some, decrypt_cipherBytes, fromUtf8_utf8, h2]

/-- C62: a call posts one body or none, and the body carries the caller's request, for every request below 4 GiB. -/
theorem C62_request (request : String) (h : (utf8 request).length < 2 ^ 32) (s : St σ) :
    (send env request s).2.posted = s.posted ∨
      ∃ b, (send env request s).2.posted = s.posted ++ [b] ∧ Carries b request := by
  rw [send_posted]
  rcases executeSend_cases env request h s with ⟨_, _, _, _, h1⟩ | ⟨b, _, h1, h2, _⟩
  · exact .inl h1
  · exact .inr ⟨b, h2, h1⟩

/-- C62: what a call returns is the JSON value whose cipher the device answered with, with status 200, to this very
request. -/
theorem C62_answer (request : String) (h : (utf8 request).length < 2 ^ 32) (s : St σ) (j : Json)
    (hok : (send env request s).1 = .ok j) :
    ∃ b w answer text, (send env request s).2.posted = s.posted ++ [b] ∧ Carries b request ∧
      (env.post b w).1 = .ok (200, answer) ∧ Answers answer text ∧ env.loads text = some j := by
  have hex : (executeSend env request s).1 = .ok j := by
    rcases send_cases env request s with ⟨_, _, h1⟩ | ⟨_, _, h1⟩
    · rw [← h1]; exact hok
    · rw [h1] at hok; cases hok
  rw [send_posted]
  rcases executeSend_cases env request h s with ⟨_, _, _, h1, _⟩ | ⟨b, w, h1, h2, h3⟩
  · rw [h1] at hex; cases hex
  · rcases h3 with ⟨_, _, h3⟩ | ⟨_, _, _, _, h3⟩ | ⟨r, h4, h3⟩
    · rw [h3] at hex; cases hex
    · rw [h3] at hex; cases hex
    · rw [h3] at hex
      cases hr : readAnswer env r with
      | none => rw [hr] at hex; cases hex
      | some j' =>
        rw [hr] at hex
        cases hex
        obtain ⟨text, h5, h6⟩ := (readAnswer_iff env r j).1 hr
        exact ⟨b, w, r, text, h2, h1, h4, h5, h6⟩

/-- C62: after any history a call succeeds if the device answers the request it is sent. -/
theorem C62_succeeds (request : String) (h : (utf8 request).length < 2 ^ 32) (s : St σ) (j : Json)
    (hctx : ∀ w, (env.context w).1 = .ok ())
    (hpost : ∀ b w, Carries b request →
      ∃ answer text, (env.post b w).1 = .ok (200, answer) ∧ Answers answer text ∧ env.loads text = some j) :
    (send env request s).1 = .ok j := by
  have hex : (executeSend env request s).1 = .ok j := by
    rcases executeSend_cases env request h s with ⟨e, w, h1, _, _⟩ | ⟨b, w, h1, _, h3⟩
    · rw [hctx] at h1; cases h1
    · obtain ⟨answer, text, h4, h5, h6⟩ := hpost b w h1
      rcases h3 with ⟨_, h7, _⟩ | ⟨_, _, h7, h8, _⟩ | ⟨r, h7, h8⟩
      · rw [h4] at h7; cases h7
      · rw [h4] at h7; cases h7; exact absurd rfl h8
      · rw [h4] at h7
        cases h7
        rw [h8, (readAnswer_iff env answer j).2 ⟨text, h5, h6⟩]
  rcases send_cases env request s with ⟨_, _, h1⟩ | ⟨_, h1, _⟩
  · rw [h1]; exact hex
  · rw [hex] at h1; cases h1

/-- C62: every failure is one that the protocol retries, except a cancellation, which only comes from outside. -/
theorem C62_errors (request : String) (h : (utf8 request).length < 2 ^ 32) (s : St σ) (e : Exc)
    (herr : (send env request s).1 = .error e) :
    e = .retryable none ∨ e = .base ∧ ∃ w, (env.context w).1 = .error .base ∨ ∃ b, (env.post b w).1 = .error .base := by
  rcases send_cases env request s with ⟨_, h1, h2⟩ | ⟨x, h1, h2⟩
  · rw [h2, h1] at herr; cases herr
  · rw [h2] at herr
    cases x with
    | base =>
      right
      cases herr
      refine ⟨rfl, ?_⟩
      rcases executeSend_cases env request h s with ⟨x, w, h3, h4, _⟩ | ⟨b, w, _, _, h3⟩
      · rw [h1] at h4; cases h4; exact ⟨w, .inl h3⟩
      · rcases h3 with ⟨x, h3, h4⟩ | ⟨_, _, _, _, h4⟩ | ⟨r, _, h4⟩
        · rw [h1] at h4; cases h4; exact ⟨w, .inr ⟨b, h3⟩⟩
        · rw [h1] at h4; cases h4
        · rw [h1] at h4; split at h4 <;> cases h4
    | _ => left; cases herr; rfl

end

/-! ## Errors in plain text -/

/-- Bytes that begin like this are no UTF-8. -/
theorem not_utf8 (rest : Bytes) : fromUtf8 (0xd1 :: 0xc0 :: rest) = none := by
  cases h : fromUtf8 (0xd1 :: 0xc0 :: rest) with
  | none => rfl
  | some s =>
    exfalso
    have hu := utf8_of_fromUtf8 h
    have hne : s ≠ "" := by
      rintro rfl
      cases hu
    have hd := String.isSome_utf8DecodeChar?_zero hne
    have ha : s.toByteArray = ⟨(0xd1 :: 0xc0 :: rest).toArray⟩ := by
      rw [← hu]
      rfl
    rw [ha, ← ByteArray.validateUTF8At_eq_isSome_utf8DecodeChar?] at hd
    have hf : ByteArray.validateUTF8At ⟨(0xd1 :: 0xc0 :: rest).toArray⟩ 0 = false := by
      unfold ByteArray.validateUTF8At
      rw [dif_pos (by simp [ByteArray.size])]
      have h1 : ByteArray.utf8DecodeChar?.parseFirstByte 0xd1 = .oneMore := by rfl
      have h2 : (0 + 1 < ByteArray.size ⟨(0xd1 :: 0xc0 :: rest).toArray⟩) := by simp [ByteArray.size]
      split
      · rfl
      · rename_i hx; exact absurd (h1.symm.trans hx) (by intro h; cases h)
      · rw [dif_pos h2]
        show ByteArray.utf8DecodeChar?.verify₂ 0xd1 0xc0 = false
        rfl
      · rename_i hx; exact absurd (h1.symm.trans hx) (by intro h; cases h)
      · rename_i hx; exact absurd (h1.symm.trans hx) (by intro h; cases h)
    rw [hf] at hd
    cases hd

theorem symbols : B64.symbolOf '{' = .other ∧ B64.symbolOf '"' = .other ∧ B64.symbolOf 'e' = .digit 30 ∧
    B64.symbolOf 'r' = .digit 43 ∧ B64.symbolOf '_' = .other ∧ B64.symbolOf 'c' = .digit 28 := by decide +kernel

theorem decode_err (rest : List Char) :
    B64.decode ("{\"err_c".toList ++ rest) =
      (B64.decode rest).map fun b => 0x7a :: 0xba :: 0xdc :: b := by
  show B64.decodeFrom .zero 0 ('{' :: '"' :: 'e' :: 'r' :: 'r' :: '_' :: 'c' :: rest) = _
  simp only [B64.decodeFrom, symbols, Option.map_map]
  rfl

theorem chars_append (a b : Bytes) : chars (a ++ b) = chars a ++ chars b := List.map_append

/-- C62, in part: the errors that devices report as plain text, `{"err_code": …`, are never taken for an answer; the
call fails with an exception that the protocol retries. -/
theorem C62_plaintext_partial {σ : Type} (env : Env σ) (request : String) (h : (utf8 request).length < 2 ^ 32)
    (s : St σ) (hctx : ∀ w, (env.context w).1 = .ok ())
    (hpost : ∀ b w, ∃ rest, (env.post b w).1 = .ok (200, ascii "{\"err_code\"".toList ++ rest)) :
    (send env request s).1 = .error (.retryable none) := by
  have hread : ∀ rest, readAnswer env (ascii "{\"err_code\"".toList ++ rest) = none := by
    intro rest
    unfold readAnswer
    have h1 : chars (ascii "{\"err_code\"".toList ++ rest) = "{\"err_c".toList ++ ("ode\"".toList ++ chars rest) := by
      rw [chars_append]
      rfl
    rw [h1, decode_err]
    cases B64.decode ("ode\"".toList ++ chars rest) with
    | none => rfl
    | some b =>
      show (fromUtf8 (Xor.decrypt (0x7a :: 0xba :: 0xdc :: b))).bind env.loads = none
      have : Xor.decrypt (0x7a :: 0xba :: 0xdc :: b) = 0xd1 :: 0xc0 :: (0x66 :: Xor.xorEncryptedPayloadFrom 0xdc b) := rfl
      rw [this, not_utf8]
      rfl
  rcases send_cases env request s with ⟨j, h1, _⟩ | ⟨e, h1, h2⟩
  · exfalso
    rcases executeSend_cases env request h s with ⟨_, w, h3, _⟩ | ⟨b, w, _, _, h3⟩
    · rw [hctx] at h3; cases h3
    · obtain ⟨rest, h4⟩ := hpost b w
      rcases h3 with ⟨_, h5, _⟩ | ⟨_, _, h5, h6, _⟩ | ⟨r, h5, h6⟩
      · rw [h4] at h5; cases h5
      · rw [h4] at h5; cases h5; exact h6 rfl
      · rw [h4] at h5
        cases h5
        rw [h1, hread] at h6
        cases h6
  · rcases C62_errors env request h s _ (by rw [h2]) with h3 | ⟨h3, w, h4 | ⟨b, h4⟩⟩
    · rw [h2, h3]
    · rw [hctx] at h4; cases h4
    · obtain ⟨rest, h5⟩ := hpost b w
      rw [h5] at h4
      cases h4

/-! ## Witnesses -/

/-- A device that always answers the same. -/
def constant (answer : Bytes) : Env Unit where
  context w := (.ok (), w)
  post _ w := (.ok (200, answer), w)
  loads text := if text = "{}" then some (.obj []) else none
  loadsBytes _ := some .null

/-- The answer `{}`. -/
def emptyAnswer : Bytes := ascii "0K0=".toList

theorem emptyAnswer_answers : Answers emptyAnswer "{}" := by
  unfold Answers
  decide +kernel

/-- Non-vacuity of `C62_succeeds` and `C62_answer`. -/
example : (send (constant emptyAnswer) "{\"system\":{}}" { world := () }).1 = .ok (.obj []) :=
  C62_succeeds _ _ (by decide +kernel) _ _ (fun _ => rfl) fun _ _ _ => ⟨_, _, rfl, emptyAnswer_answers, rfl⟩

/-- Non-vacuity of `C62_request`: the body for a short request. -/
example : body "?>?" = some (ascii "content=lKqV".toList) ∧
    body "{}>>>" = some (ascii "content=0K2TrZM%3D".toList) := by
  decide +kernel

/-- Non-vacuity of `C62_plaintext_partial` and `C62_errors`. -/
example : (send (constant (ascii "{\"err_code\":-3}".toList)) "{}" { world := () }).1 = .error (.retryable none) :=
  C62_plaintext_partial _ _ (by decide +kernel) _ (fun _ => rfl) fun _ _ => ⟨ascii ":-3}".toList, rfl⟩

/-- C62 is false of plain-text errors in general: characters outside the base64 alphabet are skipped, so this JSON text
is taken for the answer `{}`. -/
theorem C62_lookalike :
    (send (constant (ascii "{\"0K0=\": \"failed\"}".toList)) "{}" { world := () }).1 = .ok (.obj []) :=
  C62_succeeds _ _ (by decide +kernel) _ _ (fun _ => rfl) fun _ _ _ =>
    ⟨_, "{}", rfl, by unfold Answers; decide +kernel, rfl⟩

end Kasa.Linkie
