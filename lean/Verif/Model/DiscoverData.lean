import Verif.Model.Discover
import Verif.Model.Aes
/-!
# Encrypted discovery data (discover.py, transports/aestransport.py)

A probe carries a public key; a device may answer with a session key sealed for it, and with data encrypted under the session key.  RSA-OAEP, the
block cipher, base64, UTF-8 and the JSON text are parameters.
-/

namespace Kasa.DiscoverData
open Discover Config Factory

/-- RSA with OAEP padding and a key of 2048 bits (aestransport.py:433-500): sealing is randomised, and short messages can be opened again. -/
structure Rsa where
  Pair : Type
  Pub : Type
  pub : Pair → Pub
  wrap : Pub → Bytes → Bytes → Bytes
  opened : Pair → Bytes → Except Exc Bytes
  opened_wrap : ∀ k random m, m.length ≤ 214 → opened k (wrap (pub k) random m) = .ok m

/-- The encodings: the payload with the public key (discover.py:203-205) and how a device reads it, base64, UTF-8 and JSON. -/
structure Enc (R : Rsa) where
  payload : R.Pub → Bytes
  pubOf : Bytes → Option R.Pub
  b64 : Bytes → String
  unb64 : String → Except Exc Bytes
  decode : Bytes → Except Exc String
  loads : String → Except Exc Json
  pubOf_payload : ∀ p, pubOf (payload p) = some p
  unb64_b64 : ∀ b, unb64 (b64 b) = .ok b

/-- `EncryptionInfo` (discover.py:955-961). -/
structure Info where
  symSchm : String
  key : String
  data : String

section
variable {R : Rsa} (c : BlockCipher) (E : Enc R)

/-- `_decrypt_discovery_data` (discover.py:759-789): the value put into `decrypted_data`.  Without a key pair `None.decrypt_discovery_key` raises. -/
def decryptData (pair : Option R.Pair) (i : Info) : Except Exc Json := do
  let sealed ← E.unb64 i.key
  match pair with
  | none => .error (.other "AttributeError")
  | some k => do
    let keyAndIv ← R.opened k sealed
    match Aes.Session.make keyAndIv with
    | none => .error (.other "ValueError")
    | some ses => do
      let ciphertext ← E.unb64 i.data
      match Crypto.decrypt c ses.key ses.iv ciphertext with
      | none => .error (.other "ValueError")
      | some plain => do
        let text ← E.decode plain
        E.loads text

/-- An answer: its result with `encrypt_info` and with the `decrypted_data` it may itself carry. -/
structure Answer where
  result : DiscoveryResult
  info : Option Info
  claimed : Option Json

/-- The `try` around the decryption (discover.py:872-882): what `decrypted_data` is afterwards. -/
def dataOf (pair : Option R.Pair) (a : Answer) : Except Exc (Option Json) :=
  match a.info with
  | none => .ok a.claimed
  | some i =>
    if i.symSchm = "AES" then
      match decryptData c E pair i with
      | .ok j => .ok (some j)
      | .error e => if e.isException then .ok a.claimed else .error e
    else .ok a.claimed

/-- `_get_device_instance` (discover.py:844-931), after parsing: the device, and the data it is given as part of the discovery information. -/
def instanceOf (d : Deps) (pair : Option R.Pair) (a : Answer) (config : DeviceConfig) : Except Exc (Dev × Option Json) := do
  let data ← dataOf c E pair a
  let conn ← unsupportedParams d a.result
  let config := { config with connectionType := conn }
  match classFromFamily a.result.deviceType conn.https false with
  | none => .error .unsupported
  | some cls =>
    match getProtocol config false with
    | none => .error .unsupported
    | some p => pure ({ cls, host := config.host, protocol := some p, connection := conn, config }, data)

/-! ## The process -/

/-- The class attribute `keypair` (discover.py:195) and the probes sent so far. -/
structure St (R : Rsa) where
  pair : Option R.Pair := none
  sent : List Bytes := []

/-- What happens: a probe is made, where `fresh` is the key pair that would be created; or an answer arrives, which changes nothing here. -/
inductive Ev (R : Rsa) where
  | probe (fresh : R.Pair) (secret : Bytes)
  | answer (a : Answer)

/-- `generate_query` (discover.py:197-230): a key pair is only created for the first probe. -/
def step (crc32 : Bytes → Nat) (s : St R) : Ev R → St R
  | .answer _ => s
  | .probe fresh secret =>
    let k := match s.pair with
      | some k => k
      | none => fresh
    match generateQuery crc32 (E.payload (R.pub k)) secret with
    | some q => { pair := some k, sent := s.sent ++ [q] }
    | none => { s with pair := some k }

/-- A history of the process. -/
def run (crc32 : Bytes → Nat) (s : St R) (evs : List (Ev R)) : St R := evs.foldl (step E crc32) s
end

end Kasa.DiscoverData
