import Verif.Model.DiscoverData
/-!
# Specification: encrypted discovery data
-/

namespace Kasa.DiscoverDataSpec
open Discover DiscoverData

/-- What a device does with a probe: it reads the public key behind the header of 16 bytes, seals the key and the initialisation vector of a
session for it, and encrypts its data, any text of the JSON value, under the session. -/
def Replies {R : Rsa} (c : BlockCipher) (E : Enc R) (probe : Bytes) (j : Json) (i : Info) : Prop :=
  ∃ (p : R.Pub) (random key iv text : Bytes), E.pubOf (probe.drop 16) = some p ∧ key.length = 16 ∧ iv.length = 16 ∧ (do E.loads (← E.decode text)) = .ok j ∧
    i = ⟨"AES", E.b64 (R.wrap p random (key ++ iv)), E.b64 (Crypto.encrypt c key iv text)⟩

end Kasa.DiscoverDataSpec
