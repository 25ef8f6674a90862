/-!
# Byte strings and `struct` packing
-/

namespace Kasa

/-- Python `bytes`. -/
abbrev Bytes := List UInt8

/-- The four bytes of `struct.pack(">I", n)` for `n < 2^32` (the range check is in `packU32`). -/
def be32 (n : Nat) : Bytes :=
  [UInt8.ofNat (n / 2 ^ 24), UInt8.ofNat (n / 2 ^ 16), UInt8.ofNat (n / 2 ^ 8), UInt8.ofNat n]

/-- `struct.Struct(">I").pack(n)`: `none` is `struct.error` (argument out of range). -/
def packU32 (n : Nat) : Option Bytes := if n < 2 ^ 32 then some (be32 n) else none

/-- `int.from_bytes(b, "big")`; also `struct.unpack(">I", b)` for a 4-byte `b`. -/
def beValue (b : Bytes) : Nat := b.foldl (fun acc x => acc * 256 + x.toNat) 0

@[simp] theorem be32_length (n : Nat) : (be32 n).length = 4 := rfl

theorem beValue_be32 {n : Nat} (h : n < 2 ^ 32) : beValue (be32 n) = n := by
  simp only [beValue, be32, List.foldl_cons, List.foldl_nil, UInt8.toNat_ofNat']
  omega

theorem be32_injective {m n : Nat} (hm : m < 2 ^ 32) (hn : n < 2 ^ 32) (h : be32 m = be32 n) :
    m = n := by
  rw [← beValue_be32 hm, ← beValue_be32 hn, h]

end Kasa
