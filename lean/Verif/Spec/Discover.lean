import Verif.Py.Bytes
/-!
# Discovery: the probe's format, and the first datagram of a host
-/

namespace Kasa.DiscoverSpec

/-- The number written in two bytes, most significant first. -/
def word16 (a b : UInt8) : Nat := a.toNat * 256 + b.toNat

/-- The number written in four bytes, most significant first. -/
def word32 (a b c d : UInt8) : Nat := ((a.toNat * 256 + b.toNat) * 256 + c.toNat) * 256 + d.toNat

/-- The format of the probe.  `checksum` is CRC-32. -/
structure WellFormed (checksum : Bytes → Nat) (payload serial message : Bytes) : Prop where
  /-- Sixteen bytes of header, then the payload. -/
  shape : ∃ l1 l0 s3 s2 s1 s0 c3 c2 c1 c0,
    message = [2, 0, 0, 1, l1, l0, 17, 0, s3, s2, s1, s0, c3, c2, c1, c0] ++ payload ∧
    word16 l1 l0 = payload.length ∧
    [s3, s2, s1, s0] = serial ∧
    /- The checksum is over the message with the fixed value in its place. -/
    word32 c3 c2 c1 c0 =
      checksum ([2, 0, 0, 1, l1, l0, 17, 0, s3, s2, s1, s0, 0x5A, 0x6B, 0x7C, 0x8D] ++ payload)

/-- From which ports answers are taken, given the port the caller asked for: from that one, or else 9999, and from 20002. -/
inductive ListensTo : Option Nat → Nat → Prop where
  | asked (p : Nat) : p ≠ 0 → ListensTo (some p) p
  | legacy : ListensTo none 9999
  | zero : ListensTo (some 0) 9999
  | new (asked : Option Nat) : ListensTo asked 20002

end Kasa.DiscoverSpec
