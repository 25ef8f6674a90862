import Verif.Model.Klap
/-!
# Specification of KLAP traffic, as an observer of the device's network traffic, clock and cookies sees it
-/

namespace Kasa.KlapSpec
open Klap

/-! ## What a device expects -/

/-- The hashes the library may authenticate with, in the order in which they are tried: the user's credentials, the
default credentials, blank credentials. -/
def candidates (cfg : Config) : List Bytes :=
  cfg.localHash :: cfg.defaults.map cfg.variant.authHash ++
    (if cfg.credentials = some {} then [] else [cfg.variant.authHash {}])

/-- The device's proof `proof` was made with `a`, and with none of the hashes tried before `a`. -/
def FirstProved (cfg : Config) (localSeed remoteSeed proof a : Bytes) : Prop :=
  ∃ before after, candidates cfg = before ++ a :: after ∧ cfg.variant.handshake1 localSeed remoteSeed a = proof ∧
    ∀ x ∈ before, cfg.variant.handshake1 localSeed remoteSeed x ≠ proof

/-- The keys both sides derive from the seeds and the authentication hash. -/
structure Keys where
  key : Bytes
  iv : Bytes
  sig : Bytes
  /-- the initial sequence number -/
  start : Int

/-- Key derivation as the protocol documents it (the first lines of klaptransport.py). -/
def keys (h : Hashes) (localSeed remoteSeed a : Bytes) : Keys where
  key := (h.sha256 ("lsk".toUTF8.toList ++ (localSeed ++ (remoteSeed ++ a)))).take 16
  iv := (h.sha256 ("iv".toUTF8.toList ++ (localSeed ++ (remoteSeed ++ a)))).take 12
  start := Crypto.signed32 ((h.sha256 ("iv".toUTF8.toList ++ (localSeed ++ (remoteSeed ++ a)))).drop 28)
  sig := (h.sha256 ("ldk".toUTF8.toList ++ (localSeed ++ (remoteSeed ++ a)))).take 28

/-- How a device reads a request with sequence number `n`: check the signature, decrypt the rest. -/
def deviceReads (c : BlockCipher) (h : Hashes) (k : Keys) (n : Int) (payload : Bytes) : Option Bytes :=
  match Crypto.packI32 n with
  | none => none
  | some packed =>
    if payload.take 32 = h.sha256 (k.sig ++ packed ++ payload.drop 32) then
      Crypto.decrypt c k.key (k.iv ++ packed) (payload.drop 32)
    else none

/-- How a device answers a request with sequence number `n`; the client does not check the signature. -/
def deviceAnswers (c : BlockCipher) (k : Keys) (n : Int) (signature answer : Bytes) : Option Bytes :=
  (Crypto.packI32 n).map fun packed => signature ++ Crypto.encrypt c k.key (k.iv ++ packed) answer

/-! ## A genuine device -/

/-- What a genuine device stores about its owner's credentials, how it answers handshake1 (after its seed) and what it
expects in handshake2: version 1 and version 2 of the protocol. -/
structure Device where
  stored : Bytes → Bytes → Bytes
  proof : Bytes → Bytes → Bytes → Bytes
  expects : Bytes → Bytes → Bytes → Bytes

def deviceV1 (h : Hashes) : Device where
  stored user password := h.md5 (h.md5 user ++ h.md5 password)
  proof localSeed _ a := h.sha256 (localSeed ++ a)
  expects _ remoteSeed a := h.sha256 (remoteSeed ++ a)

def deviceV2 (h : Hashes) : Device where
  stored user password := h.sha256 (h.sha1 user ++ h.sha1 password)
  proof localSeed remoteSeed a := h.sha256 (localSeed ++ (remoteSeed ++ a))
  expects localSeed remoteSeed a := h.sha256 (remoteSeed ++ (localSeed ++ a))

/-! ## The observer -/

/-- What the observer remembers. -/
structure Obs where
  /-- a handshake has been completed, and since then neither reset nor refused -/
  up : Bool := false
  /-- local seed and answer of the last handshake1 -/
  seeds : Option (Bytes × Bytes) := none
  /-- session lifetime announced by the device -/
  timeout : Int := 86400
  /-- when the session must not be used any more -/
  deadline : Option Int := none
  /-- number of requests sent in this session -/
  count : Nat := 0
  /-- the handshake was completed after the last request -/
  fresh : Bool := false
  /-- the last clock reading after the last request -/
  now : Option Int := none

/-- How an event changes what the observer remembers. -/
def see (int : String → Option Int) (o : Obs) : Ev → Obs
  | .post .handshake1 localSeed _ outcome =>
    { seeds := match outcome with
        | .ok (200, data) => some (localSeed, data)
        | _ => none }
  | .cookie name value =>
    if name = "TIMEOUT" then
      { o with timeout := match value with
        | some v => if v = "" then 86400 else (int v).getD 0
        | none => 86400 }
    else o
  | .clock t => if o.up then { o with now := some t } else { o with deadline := some (t + o.timeout - 1200) }
  | .post .handshake2 _ _ outcome =>
    match outcome with
    | .ok (200, _) => { o with up := true, fresh := true, count := 0 }
    | _ => { o with up := false }
  | .post (.request _) _ _ outcome =>
    match outcome with
    | .ok (403, _) => { o with up := false }
    | _ => { o with count := o.count + 1, fresh := false, now := none }
  | .reset => { o with up := false }

/-- What the observer remembers after a history. -/
def observe (int : String → Option Int) (log : List Ev) : Obs := log.foldl (see int) {}

/-- A request that the observer accepts: the session is up and, unless it was just established, was found not to have
run out; the request is the next one of the session; and it carries a message encrypted with the keys of the session
that was negotiated, for credentials the device proved to know; the message is one the caller asked to send. -/
structure Allowed (c : BlockCipher) (h : Hashes) (cfg : Config) (asked : Bytes → Prop) (o : Obs) (n : Int)
    (payload : Bytes) : Prop where
  up : o.up = true
  live : o.fresh = true ∨ ∃ t d, o.now = some t ∧ o.deadline = some d ∧ t < d
  content : ∃ localSeed data a message, asked message ∧ o.seeds = some (localSeed, data) ∧ data.length = 48 ∧
    FirstProved cfg localSeed (data.take 16) (data.drop 16) a ∧
    n = (keys h localSeed (data.take 16) a).start + o.count + 1 ∧
    deviceReads c h (keys h localSeed (data.take 16) a) n payload = some message

/-- The observer accepts every request in the history. -/
def Accepted (c : BlockCipher) (h : Hashes) (cfg : Config) (asked : Bytes → Prop) (int : String → Option Int)
    (log : List Ev) : Prop :=
  ∀ before n payload cookies outcome after, log = before ++ .post (.request n) payload cookies outcome :: after →
    Allowed c h cfg asked (observe int before) n payload

end Kasa.KlapSpec
