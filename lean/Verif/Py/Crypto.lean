import Verif.Py.Bytes
/-!
# AES-CBC with PKCS#7 padding, hash functions

The block cipher and the hash functions are parameters: nothing is assumed of the cipher except that decryption undoes
encryption of a 16-byte block, and of a hash function except the length of its value.
-/

namespace Kasa

/-- A block cipher on 16-byte blocks (`algorithms.AES`). -/
structure BlockCipher where
  enc : Bytes → Bytes → Bytes
  dec : Bytes → Bytes → Bytes
  enc_length : ∀ k b, b.length = 16 → (enc k b).length = 16
  dec_length : ∀ k b, b.length = 16 → (dec k b).length = 16
  dec_enc : ∀ k b, b.length = 16 → dec k (enc k b) = b

/-- The hash functions of the standard library. -/
structure Hashes where
  sha256 : Bytes → Bytes
  sha1 : Bytes → Bytes
  md5 : Bytes → Bytes
  sha256_length : ∀ b, (sha256 b).length = 32

namespace Crypto

/-- Bytewise exclusive or. -/
def xor (a b : Bytes) : Bytes := List.zipWith (· ^^^ ·) a b

theorem xor_length {a b : Bytes} (h : a.length = b.length) : (xor a b).length = a.length := by
  simp [xor, h]

theorem xor_xor {a b : Bytes} (h : a.length = b.length) : xor (xor a b) b = a := by
  induction a generalizing b with
  | nil => rfl
  | cons x xs ih =>
    cases b with
    | nil => simp at h
    | cons y ys =>
      have hxy : x ^^^ y ^^^ y = x := by rw [UInt8.xor_assoc]; simp
      simp only [xor, List.zipWith_cons_cons, hxy] at ih ⊢
      rw [ih (by simpa using h)]

/-- CBC encryption of `n` blocks. -/
def cbcEncBlocks (c : BlockCipher) (key : Bytes) : Bytes → Nat → Bytes → Bytes
  | _, 0, _ => []
  | iv, n + 1, d =>
    let y := c.enc key (xor (d.take 16) iv)
    y ++ cbcEncBlocks c key y n (d.drop 16)

/-- CBC decryption of `n` blocks. -/
def cbcDecBlocks (c : BlockCipher) (key : Bytes) : Bytes → Nat → Bytes → Bytes
  | _, 0, _ => []
  | iv, n + 1, d => xor (c.dec key (d.take 16)) iv ++ cbcDecBlocks c key (d.take 16) n (d.drop 16)

/-- `encryptor.update(d) + encryptor.finalize()` for CBC: `none` (ValueError) unless whole blocks. -/
def cbcEnc (c : BlockCipher) (key iv d : Bytes) : Option Bytes :=
  if d.length % 16 = 0 then some (cbcEncBlocks c key iv (d.length / 16) d) else none

/-- `decryptor.update(d) + decryptor.finalize()` for CBC: `none` (ValueError) unless whole blocks. -/
def cbcDec (c : BlockCipher) (key iv d : Bytes) : Option Bytes :=
  if d.length % 16 = 0 then some (cbcDecBlocks c key iv (d.length / 16) d) else none

/-- `padding.PKCS7(128).padder()`. -/
def pad (m : Bytes) : Bytes :=
  m ++ List.replicate (16 - m.length % 16) (UInt8.ofNat (16 - m.length % 16))

/-- `padding.PKCS7(128).unpadder()`: `none` is `ValueError` (invalid padding bytes). -/
def unpad (d : Bytes) : Option Bytes :=
  if d.length = 0 ∨ d.length % 16 ≠ 0 then none
  else
    let n := (d.getLastD 0).toNat
    if 1 ≤ n ∧ n ≤ 16 ∧ d.drop (d.length - n) = List.replicate n (UInt8.ofNat n) then some (d.take (d.length - n))
    else none

/-- Pad and encrypt. -/
def encrypt (c : BlockCipher) (key iv m : Bytes) : Bytes := (cbcEnc c key iv (pad m)).getD []

/-- Decrypt and unpad. -/
def decrypt (c : BlockCipher) (key iv d : Bytes) : Option Bytes := (cbcDec c key iv d).bind unpad

theorem pad_length (m : Bytes) : (pad m).length = m.length + (16 - m.length % 16) := by simp [pad]
theorem pad_mod (m : Bytes) : (pad m).length % 16 = 0 := by rw [pad_length]; omega

theorem cbcEncBlocks_length (c : BlockCipher) (key : Bytes) (n : Nat) (iv d : Bytes) (hiv : iv.length = 16)
    (hd : d.length = 16 * n) : (cbcEncBlocks c key iv n d).length = 16 * n := by
  induction n generalizing iv d with
  | zero => rfl
  | succ n ih =>
    have ht : (d.take 16).length = 16 := by simp; omega
    have hx : (xor (d.take 16) iv).length = 16 := by rw [xor_length (by omega), ht]
    have hy := c.enc_length key _ hx
    simp only [cbcEncBlocks, List.length_append]
    rw [ih _ _ hy (by simp; omega), hy]; omega

theorem cbcDec_enc_blocks (c : BlockCipher) (key : Bytes) (n : Nat) (iv d : Bytes) (hiv : iv.length = 16)
    (hd : d.length = 16 * n) : cbcDecBlocks c key iv n (cbcEncBlocks c key iv n d) = d := by
  induction n generalizing iv d with
  | zero =>
    have : d = [] := List.length_eq_zero_iff.mp (by omega)
    rw [this]; rfl
  | succ n ih =>
    have ht : (d.take 16).length = 16 := by simp; omega
    have hx : (xor (d.take 16) iv).length = 16 := by rw [xor_length (by omega), ht]
    have hy := c.enc_length key _ hx
    simp only [cbcEncBlocks, cbcDecBlocks]
    rw [List.take_left' hy, List.drop_left' hy, c.dec_enc key _ hx, xor_xor (by omega),
      ih _ _ hy (by simp; omega), List.take_append_drop]

theorem encrypt_length (c : BlockCipher) (key iv m : Bytes) (hiv : iv.length = 16) :
    (encrypt c key iv m).length = (pad m).length := by
  have h := pad_mod m
  simp only [encrypt, cbcEnc, h, if_true, Option.getD_some]
  rw [cbcEncBlocks_length c key _ iv _ hiv (by omega)]
  omega

theorem unpad_pad (m : Bytes) : unpad (pad m) = some m := by
  have hmod := pad_mod m
  have hlen := pad_length m
  have hn : 1 ≤ 16 - m.length % 16 ∧ 16 - m.length % 16 ≤ 16 := by omega
  have hlast : (pad m).getLastD 0 = UInt8.ofNat (16 - m.length % 16) := by
    unfold pad
    obtain ⟨k, hk⟩ : ∃ k, 16 - m.length % 16 = k + 1 := ⟨16 - m.length % 16 - 1, by omega⟩
    rw [hk, List.replicate_succ', ← List.append_assoc, List.getLastD_concat]
  have hnat : (UInt8.ofNat (16 - m.length % 16)).toNat = 16 - m.length % 16 := by
    rw [UInt8.toNat_ofNat']; omega
  have hsub : (pad m).length - (16 - m.length % 16) = m.length := by omega
  unfold unpad
  rw [if_neg (by omega)]
  simp only [hlast, hnat, hsub]
  rw [if_pos ⟨hn.1, hn.2, by simp [pad]⟩]
  simp [pad]

/-- Decryption undoes encryption for every message. -/
theorem decrypt_encrypt (c : BlockCipher) (key iv m : Bytes) (hiv : iv.length = 16) :
    decrypt c key iv (encrypt c key iv m) = some m := by
  have h := pad_mod m
  have hl := encrypt_length c key iv m hiv
  unfold decrypt cbcDec
  rw [if_pos (by omega), hl]
  simp only [encrypt, cbcEnc, h, if_true, Option.getD_some, Option.bind_some]
  rw [cbcDec_enc_blocks c key _ iv _ hiv (by omega), unpad_pad]

/-- `struct.Struct(">l").pack(n)`: `none` is `struct.error`. -/
def packI32 (n : Int) : Option Bytes :=
  if -2 ^ 31 ≤ n ∧ n < 2 ^ 31 then some (be32 (n % 2 ^ 32).toNat) else none

/-- `int.from_bytes(b, "big", signed=True)` of four bytes. -/
def signed32 (b : Bytes) : Int :=
  if beValue b < 2 ^ 31 then (beValue b : Int) else (beValue b : Int) - 2 ^ 32

theorem packI32_length {n : Int} {b : Bytes} (h : packI32 n = some b) : b.length = 4 := by
  unfold packI32 at h
  split at h
  · cases h; rfl
  · cases h

theorem packI32_injective {m n : Int} {b : Bytes} (hm : packI32 m = some b) (hn : packI32 n = some b) : m = n := by
  unfold packI32 at hm hn
  split at hm
  · split at hn
    · cases hm
      simp only [Option.some.injEq] at hn
      have := be32_injective (by omega) (by omega) hn
      omega
    · cases hn
  · cases hm

theorem signed32_range {b : Bytes} (h : b.length = 4) : -2 ^ 31 ≤ signed32 b ∧ signed32 b < 2 ^ 31 := by
  have hb : beValue b < 2 ^ 32 := by
    match b, h with
    | [a, b, c, d], _ =>
      have h1 := a.toNat_lt; have h2 := b.toNat_lt; have h3 := c.toNat_lt; have h4 := d.toNat_lt
      simp only [beValue, List.foldl_cons, List.foldl_nil]
      omega
  unfold signed32
  split <;> omega

theorem signed32_packI32 {n : Int} {b : Bytes} (h : packI32 n = some b) : signed32 b = n := by
  unfold packI32 at h
  split at h
  · cases h
    unfold signed32
    rw [beValue_be32 (by omega)]
    split <;> omega
  · cases h

/-- A toy cipher (exclusive or with the key), used only in examples. -/
def toyCipher : BlockCipher where
  enc k b := if b.length = 16 then xor b ((k ++ List.replicate 16 0).take 16) else b
  dec k b := if b.length = 16 then xor b ((k ++ List.replicate 16 0).take 16) else b
  enc_length k b h := by simp [h, xor]
  dec_length k b h := by simp [h, xor]
  dec_enc k b h := by
    have h1 : (xor b ((k ++ List.replicate 16 0).take 16)).length = 16 := by simp [xor, h]
    simp only [h, if_true, h1]
    exact xor_xor (by simp [h])

/-- A toy hash (first bytes, zero filled), used only in examples. -/
def toyHashes : Hashes where
  sha256 b := (b ++ List.replicate 32 0).take 32
  sha1 b := (b ++ List.replicate 20 0).take 20
  md5 b := (b ++ List.replicate 16 0).take 16
  sha256_length b := by simp

end Crypto
end Kasa
