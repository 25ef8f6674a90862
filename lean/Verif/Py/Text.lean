import Verif.Py.Bytes
/-!
# Texts as bytes: UTF-8 and base64

Python's `str.encode()`, `bytes.decode()`, `base64.b64encode` and `base64.b64decode` (CPython's `binascii`).  A Python
`str` with lone surrogates, which `encode()` refuses, is no `String`.
-/

namespace Kasa

/-- `s.encode()`. -/
def utf8 (s : String) : Bytes := s.toByteArray.data.toList

/-- `b.decode()`: `none` is `UnicodeDecodeError`. -/
def fromUtf8 (b : Bytes) : Option String := String.fromUTF8? ⟨b.toArray⟩

theorem fromUtf8_utf8 (s : String) : fromUtf8 (utf8 s) = some s := by
  unfold fromUtf8 utf8 String.fromUTF8?
  have h : (ByteArray.mk s.toByteArray.data.toList.toArray) = s.toByteArray := rfl
  rw [h]
  rw [dif_pos s.isValidUTF8]
  rfl

theorem utf8_of_fromUtf8 {b : Bytes} {s : String} (h : fromUtf8 b = some s) : utf8 s = b := by
  unfold fromUtf8 String.fromUTF8? at h
  split at h
  · cases h
    rfl
  · cases h

theorem utf8_injective {s t : String} (h : utf8 s = utf8 t) : s = t := by
  have := fromUtf8_utf8 s
  rw [h, fromUtf8_utf8] at this
  exact (Option.some.inj this).symm

namespace B64

/-- The alphabet of RFC 4648. -/
def alphabet : List Char := "ABCDEFGHIJKLMNOPQRSTUVWXYZabcdefghijklmnopqrstuvwxyz0123456789+/".toList

/-- The character for six bits. -/
def digit (n : Nat) : Char := alphabet.getD n '='

/-- How `binascii.a2b_base64` classifies a character. -/
inductive Sym where
  | digit (n : Nat)
  | pad
  | other
  deriving DecidableEq

/-- The classification, by table lookup. -/
def symbolOf (c : Char) : Sym :=
  if c = '=' then .pad
  else
    match alphabet.idxOf? c with
    | some n => .digit n
    | none => .other

/-- `base64.b64encode(b).decode()`. -/
def encode : Bytes → List Char
  | [] => []
  | [a] => [digit (a.toNat / 4), digit (a.toNat % 4 * 16), '=', '=']
  | [a, b] =>
    [digit (a.toNat / 4), digit (a.toNat % 4 * 16 + b.toNat / 16), digit (b.toNat % 16 * 4), '=']
  | a :: b :: c :: rest =>
    digit (a.toNat / 4) :: digit (a.toNat % 4 * 16 + b.toNat / 16) :: digit (b.toNat % 16 * 4 + c.toNat / 64) ::
      digit (c.toNat % 64) :: encode rest

/-- `quad_pos` and `leftchar` of the decoder. -/
inductive Quad where
  | zero
  | one (left : Nat)
  | two (left : Nat)
  | three (left : Nat)

/-- `quad_pos`. -/
def Quad.pos : Quad → Nat
  | .zero => 0
  | .one _ => 1
  | .two _ => 2
  | .three _ => 3

/-- `base64.b64decode(text)`, which is not strict: characters outside the alphabet are skipped, and text after the
padding is ignored.  `none` is `binascii.Error`. -/
def decodeFrom : Quad → Nat → List Char → Option Bytes
  | .zero, _, [] => some []
  | _, _, [] => none
  | q, pads, c :: cs =>
    match symbolOf c with
    | .pad =>
      if q.pos ≥ 2 then
        if q.pos + (pads + 1) ≥ 4 then some [] else decodeFrom q (pads + 1) cs
      else decodeFrom q pads cs
    | .other => decodeFrom q pads cs
    | .digit n =>
      match q with
      | .zero => decodeFrom (.one n) 0 cs
      | .one l => (decodeFrom (.two (n % 16)) 0 cs).map (UInt8.ofNat (l * 4 + n / 16) :: ·)
      | .two l => (decodeFrom (.three (n % 4)) 0 cs).map (UInt8.ofNat (l * 16 + n / 4) :: ·)
      | .three l => (decodeFrom .zero 0 cs).map (UInt8.ofNat (l * 64 + n) :: ·)

/-- `base64.b64decode(text)`. -/
def decode (text : List Char) : Option Bytes := decodeFrom .zero 0 text

theorem symbolOf_digit : ∀ n, n < 64 → symbolOf (digit n) = .digit n := by decide +kernel

theorem symbolOf_pad : symbolOf '=' = .pad := rfl

theorem ofNat_toNat (a : UInt8) (n : Nat) (h : n = a.toNat) : UInt8.ofNat n = a := by
  subst h
  exact UInt8.ofNat_toNat

/-- Decoding undoes encoding. -/
theorem decode_encode_pads (b : Bytes) (pads : Nat) : decodeFrom .zero pads (encode b) = some b := by
  induction b using encode.induct generalizing pads with
  | case1 => rfl
  | case2 a =>
    have ha := a.toNat_lt
    simp only [encode, decodeFrom, symbolOf_digit _ (show a.toNat / 4 < 64 by omega),
      symbolOf_digit _ (show a.toNat % 4 * 16 < 64 by omega), symbolOf_pad, Quad.pos]
    show Option.map _ (some []) = _
    simp only [Option.map_some]
    rw [ofNat_toNat a _ (by omega)]
  | case3 a b =>
    have ha := a.toNat_lt
    have hb := b.toNat_lt
    simp only [encode, decodeFrom, symbolOf_digit _ (show a.toNat / 4 < 64 by omega),
      symbolOf_digit _ (show a.toNat % 4 * 16 + b.toNat / 16 < 64 by omega),
      symbolOf_digit _ (show b.toNat % 16 * 4 < 64 by omega), symbolOf_pad, Quad.pos]
    show Option.map _ (Option.map _ (some [])) = _
    simp only [Option.map_some]
    rw [ofNat_toNat a _ (by omega), ofNat_toNat b _ (by omega)]
  | case4 a b c rest ih =>
    have ha := a.toNat_lt
    have hb := b.toNat_lt
    have hc := c.toNat_lt
    simp only [encode, decodeFrom, symbolOf_digit _ (show a.toNat / 4 < 64 by omega),
      symbolOf_digit _ (show a.toNat % 4 * 16 + b.toNat / 16 < 64 by omega),
      symbolOf_digit _ (show b.toNat % 16 * 4 + c.toNat / 64 < 64 by omega),
      symbolOf_digit _ (show c.toNat % 64 < 64 by omega), ih, Option.map_some]
    rw [ofNat_toNat a _ (by omega), ofNat_toNat b _ (by omega), ofNat_toNat c _ (by omega)]

theorem decode_encode (b : Bytes) : decode (encode b) = some b := decode_encode_pads b 0

/-- The characters of an encoding. -/
theorem mem_encode {b : Bytes} {c : Char} (h : c ∈ encode b) : c = '=' ∨ c ∈ alphabet := by
  have hd : ∀ n, digit n = '=' ∨ digit n ∈ alphabet := by
    intro n
    unfold digit
    rw [List.getD_eq_getElem?_getD]
    cases hn : alphabet[n]? with
    | none => exact .inl rfl
    | some x => exact .inr (List.mem_of_getElem? hn)
  induction b using encode.induct with
  | case1 => cases h
  | case2 a =>
    simp only [encode, List.mem_cons, List.not_mem_nil, or_false] at h
    rcases h with rfl | rfl | rfl | rfl
    · exact hd _
    · exact hd _
    · exact .inl rfl
    · exact .inl rfl
  | case3 a b =>
    simp only [encode, List.mem_cons, List.not_mem_nil, or_false] at h
    rcases h with rfl | rfl | rfl | rfl
    · exact hd _
    · exact hd _
    · exact hd _
    · exact .inl rfl
  | case4 a b c' rest ih =>
    simp only [encode, List.mem_cons] at h
    rcases h with rfl | rfl | rfl | rfl | h
    · exact hd _
    · exact hd _
    · exact hd _
    · exact hd _
    · exact ih h

end B64
end Kasa
