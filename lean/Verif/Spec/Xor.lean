import Verif.Py.Bytes
/-!
# Specification of the legacy wire format, independent of the model

A *frame* for a payload is its length as four big-endian bytes followed by its cipher bytes; the i-th
cipher byte is 171 xor-ed with the payload bytes 0..i.
-/

namespace Kasa.XorSpec

/-- The i-th cipher byte of payload `p`. -/
def cipherByte (p : Bytes) (i : Nat) : UInt8 := (p.take (i + 1)).foldl (· ^^^ ·) 171

/-- The cipher bytes of payload `p`. -/
def cipherBytes (p : Bytes) : Bytes := (List.range p.length).map (cipherByte p)

/-- The frame of payload `p` on the wire. -/
def frame (p : Bytes) : Bytes :=
  [UInt8.ofNat (p.length / 256 ^ 3), UInt8.ofNat (p.length / 256 ^ 2), UInt8.ofNat (p.length / 256),
    UInt8.ofNat p.length] ++ cipherBytes p

end Kasa.XorSpec
