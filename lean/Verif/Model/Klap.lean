import Verif.Py.Crypto
import Verif.Py.Monad
import Verif.Py.Json
/-!
# The KLAP transport

Models `KlapTransport`, `KlapTransportV2` and `KlapEncryptionSession` (kasa/transports/klaptransport.py:88-555).  The HTTP
client, the device, the clock, the random numbers and the cookies are an environment with an arbitrary state.  Times
are integers in some unit (floats in the code).  Logging is omitted.  `await self._get_ssl_context()`
(klaptransport.py:442-448) is omitted: after the first `handshake1` it returns without suspending.
-/

namespace Kasa.Klap
open PyM

/-! ## Encryption session -/

/-- `KlapEncryptionSession` (klaptransport.py:486-501); `cipher` is the IV of `self._cipher`, which does not exist
before the first `encrypt`. -/
structure Session where
  key : Bytes
  iv : Bytes
  sig : Bytes
  seq : Int
  cipher : Option Bytes
  deriving DecidableEq, Repr

/-- `b"lsk"`, `b"iv"`, `b"ldk"` (klaptransport.py:506, 514, 523). -/
def lsk : Bytes := [108, 115, 107]
def ivTag : Bytes := [105, 118]
def ldk : Bytes := [108, 100, 107]

/-- `KlapEncryptionSession.__init__` with `_key_derive`, `_iv_derive` and `_sig_derive`
(klaptransport.py:494-524). -/
def Session.new (h : Hashes) (localSeed remoteSeed userHash : Bytes) : Session :=
  let fulliv := h.sha256 (ivTag ++ localSeed ++ remoteSeed ++ userHash)
  { key := (h.sha256 (lsk ++ localSeed ++ remoteSeed ++ userHash)).take 16
    iv := fulliv.take 12
    seq := Crypto.signed32 (fulliv.drop (fulliv.length - 4))
    sig := (h.sha256 (ldk ++ localSeed ++ remoteSeed ++ userHash)).take 28
    cipher := none }

/-- `KlapEncryptionSession.encrypt` with `_generate_cipher` (klaptransport.py:526-546).  The counter is incremented
before anything can fail. -/
def Session.encrypt (c : BlockCipher) (h : Hashes) (s : Session) (msg : Bytes) : Except Exc (Bytes × Int) × Session :=
  let seq := s.seq + 1
  match Crypto.packI32 seq with
  | none => (.error (.other "struct.error"), { s with seq := seq })
  | some packed =>
    let iv := s.iv ++ packed
    let ciphertext := Crypto.encrypt c s.key iv msg
    let signature := h.sha256 (s.sig ++ packed ++ ciphertext)
    (.ok (signature ++ ciphertext, seq), { s with seq := seq, cipher := some iv })

/-- `KlapEncryptionSession.decrypt` (klaptransport.py:548-555) up to the final `.decode()`. -/
def Session.decrypt (c : BlockCipher) (s : Session) (msg : Bytes) : Except Exc Bytes :=
  match s.cipher with
  | none => .error (.other "AttributeError")
  | some iv =>
    match Crypto.decrypt c s.key iv (msg.drop 32) with
    | some plain => .ok plain
    | none => .error (.other "ValueError")

/-! ## Authentication hashes -/

/-- `Credentials` (kasa/credentials.py:9-17). -/
structure Credentials where
  username : Bytes := []
  password : Bytes := []
  deriving DecidableEq, Repr

/-- What differs between the two versions of the transport. -/
structure Variant where
  authHash : Credentials → Bytes
  handshake1 : Bytes → Bytes → Bytes → Bytes
  handshake2 : Bytes → Bytes → Bytes → Bytes

/-- `KlapTransport` (klaptransport.py:414-434). -/
def v1 (h : Hashes) : Variant where
  authHash creds := h.md5 (h.md5 creds.username ++ h.md5 creds.password)
  handshake1 localSeed _ authHash := h.sha256 (localSeed ++ authHash)
  handshake2 _ remoteSeed authHash := h.sha256 (remoteSeed ++ authHash)

/-- `KlapTransportV2` (klaptransport.py:460-483). -/
def v2 (h : Hashes) : Variant where
  authHash creds := h.sha256 (h.sha1 creds.username ++ h.sha1 creds.password)
  handshake1 localSeed remoteSeed authHash := h.sha256 (localSeed ++ remoteSeed ++ authHash)
  handshake2 localSeed remoteSeed authHash := h.sha256 (remoteSeed ++ localSeed ++ authHash)

/-! ## Transport -/

/-- The three addresses requests are posted to. -/
inductive Url where
  | handshake1
  | handshake2
  | request (seq : Int)
  deriving DecidableEq, Repr

/-- The environment: HTTP exchanges (status and body, or an exception of the HTTP client), the cookie jar, the
clock, random bytes, and `int()` of a cookie value. -/
structure Env (σ : Type) where
  post : Url → Bytes → Option String → σ → Except Exc (Int × Bytes) × σ
  cookie : String → σ → Option String
  now : σ → Int × σ
  token : σ → Bytes × σ
  int : String → Option Int

/-- What an observer of the environment sees. -/
inductive Ev where
  | post (url : Url) (payload : Bytes) (cookies : Option String) (outcome : Except Exc (Int × Bytes))
  | cookie (name : String) (value : Option String)
  | clock (t : Int)
  | reset
  deriving DecidableEq

/-- `KlapTransport` state (klaptransport.py:119-139) with the environment and its log. -/
structure St (σ : Type) where
  handshakeDone : Bool := false
  session : Option Session := none
  expireAt : Option Int := none
  sessionCookie : Option String := none
  world : σ
  log : List Ev := []

/-- What the transport is configured with: the credentials (`none` when only a credentials hash is known), the hash
it authenticates with, the hashes of the library's default credentials in order
(`DEFAULT_CREDENTIALS`, kasa/credentials.py:26-31; caching of these hashes is omitted). -/
structure Config where
  variant : Variant
  credentials : Option Credentials
  localHash : Bytes
  defaults : List Credentials

/-- `__init__` (klaptransport.py:119-130): the credentials in use and the hash for them.  `hash` is the decoded
`credentials_hash`. -/
def Config.make (v : Variant) (creds : Option Credentials) (hash : Option Bytes) (defaults : List Credentials) :
    Config :=
  match creds, hash with
  | some c, _ => ⟨v, some c, v.authHash c, defaults⟩
  | none, some hash => ⟨v, none, hash, defaults⟩
  | none, none => ⟨v, some {}, v.authHash {}, defaults⟩

section
variable {σ : Type} (c : BlockCipher) (h : Hashes) (env : Env σ) (cfg : Config)
variable (decode : Bytes → Option String) (json : String → Option Json)

/-- `await self._http_client.post(...)`. -/
def post (url : Url) (payload : Bytes) (cookies : Option String) : PyM (St σ) (Int × Bytes) := fun s =>
  let (r, w) := env.post url payload cookies s.world
  (r, { s with world := w, log := s.log ++ [.post url payload cookies r] })

/-- `http_client.get_cookie(name)`. -/
def getCookie (name : String) : PyM (St σ) (Option String) := fun s =>
  (.ok (env.cookie name s.world), { s with log := s.log ++ [.cookie name (env.cookie name s.world)] })

/-- `time.monotonic()`. -/
def now : PyM (St σ) Int := fun s =>
  let (t, w) := env.now s.world
  (.ok t, { s with world := w, log := s.log ++ [.clock t] })

/-- `secrets.token_bytes(16)`. -/
def token : PyM (St σ) Bytes := fun s =>
  let (b, w) := env.token s.world
  (.ok b, { s with world := w })

/-- Which hash the device's answer to `handshake1` matches (klaptransport.py:216-273). -/
def matchHash (localSeed remoteSeed serverHash : Bytes) : Except Exc Bytes :=
  if cfg.variant.handshake1 localSeed remoteSeed cfg.localHash = serverHash then .ok cfg.localHash
  else
    match cfg.defaults.find? fun d => cfg.variant.handshake1 localSeed remoteSeed (cfg.variant.authHash d) = serverHash with
    | some d => .ok (cfg.variant.authHash d)
    | none =>
      if cfg.credentials ≠ some {} ∧
          cfg.variant.handshake1 localSeed remoteSeed (cfg.variant.authHash {}) = serverHash then
        .ok (cfg.variant.authHash {})
      else .error (.auth none)

/-- `KlapTransport.perform_handshake1` (klaptransport.py:165-273). -/
def performHandshake1 : PyM (St σ) (Bytes × Bytes × Bytes) := do
  let localSeed ← token env
  let r ← post env .handshake1 localSeed none
  if r.1 ≠ 200 then raise .kasa
  else
    let remoteSeed := r.2.take 16
    let serverHash := r.2.drop 16
    if serverHash.length ≠ 32 then raise .kasa
    else do
      let authHash ← lift (matchHash cfg localSeed remoteSeed serverHash)
      pure (localSeed, remoteSeed, authHash)

/-- `KlapTransport.perform_handshake2` (klaptransport.py:275-310). -/
def performHandshake2 (localSeed remoteSeed authHash : Bytes) : PyM (St σ) Session := do
  let cookies := (← getS).sessionCookie
  let r ← post env .handshake2 (cfg.variant.handshake2 localSeed remoteSeed authHash) cookies
  if r.1 ≠ 200 then raise .kasa
  else pure (Session.new h localSeed remoteSeed authHash)

/-- `ONE_DAY_SECONDS` and `SESSION_EXPIRE_BUFFER_SECONDS` (klaptransport.py:74-75). -/
def oneDay : Int := 86400
def buffer : Int := 1200

/-- `int(http_client.get_cookie(TIMEOUT) or ONE_DAY_SECONDS)` (klaptransport.py:328-330). -/
def timeoutOf (value : Option String) : Except Exc Int :=
  match value with
  | some v =>
    if v = "" then .ok oneDay
    else
      match env.int v with
      | some n => .ok n
      | none => .error (.other "ValueError")
  | none => .ok oneDay

/-- `KlapTransport.perform_handshake` (klaptransport.py:312-342). -/
def performHandshake : PyM (St σ) Unit := do
  modifyS fun s => { s with handshakeDone := false, expireAt := none, sessionCookie := none }
  let seeds ← performHandshake1 env cfg
  let cookie ← getCookie env "TP_SESSIONID"
  modifyS fun s => { s with sessionCookie := if cookie = some "" then none else cookie }
  let value ← getCookie env "TIMEOUT"
  let timeout ← lift (timeoutOf env value)
  let t ← now env
  modifyS fun s => { s with expireAt := some (t + timeout - buffer) }
  let session ← performHandshake2 h env cfg seeds.1 seeds.2.1 seeds.2.2
  modifyS fun s => { s with session := some session, handshakeDone := true }

/-- `KlapTransport._handshake_session_expired` (klaptransport.py:344-349). -/
def sessionExpired : PyM (St σ) Bool := do
  match (← getS).expireAt with
  | none => pure true
  | some d => do
    let t ← now env
    pure (decide (d - t ≤ 0))

/-- The condition at the start of `send` (klaptransport.py:353). -/
def needsHandshake : PyM (St σ) Bool := do
  if (← getS).handshakeDone = false then pure true else sessionExpired env

/-- `self._encryption_session.encrypt(request.encode())` (klaptransport.py:357-358); without a session the variables
used next are unbound. -/
def encryptRequest (request : Bytes) : PyM (St σ) (Bytes × Int) := fun s =>
  match s.session with
  | none => (.error (.other "UnboundLocalError"), s)
  | some ses =>
    let (r, ses') := ses.encrypt c h request
    (r, { s with session := some ses' })

/-- Decrypting and parsing the answer (klaptransport.py:390-399). -/
def openResponse (ses : Option Session) (data : Bytes) : Except Exc Json :=
  match ses with
  | none => .error .kasa
  | some ses =>
    match ses.decrypt c data with
    | .error _ => .error .kasa
    | .ok plain =>
      match decode plain with
      | none => .error .kasa
      | some text =>
        match json text with
        | none => .error (.other "JSONDecodeError")
        | some v => .ok v

/-- The part of `send` after the session is known to be usable (klaptransport.py:357-403). -/
def sendRequest (request : Bytes) : PyM (St σ) Json := do
  let p ← encryptRequest c h request
  let cookies := (← getS).sessionCookie
  let r ← post env (.request p.2) p.1 cookies
  if r.1 = 403 then do
    modifyS fun s => { s with handshakeDone := false }
    raise (.retryable none)
  else if r.1 ≠ 200 then raise .kasa
  else do
    let s ← getS
    lift (openResponse c decode json s.session r.2)

/-- The first statement of `send` (klaptransport.py:353-354). -/
def ensureHandshake : PyM (St σ) Unit := do
  let needed ← needsHandshake env
  if needed then performHandshake h env cfg else pure ()

/-- `KlapTransport.send` (klaptransport.py:351-403). -/
def send (request : Bytes) : PyM (St σ) Json := do
  ensureHandshake h env cfg
  sendRequest c h env decode json request

/-- `KlapTransport.reset` (klaptransport.py:410-412). -/
def reset : PyM (St σ) Unit :=
  modifyS fun s => { s with handshakeDone := false, log := s.log ++ [.reset] }

/-- One call on a transport object. -/
inductive Op where
  | send (request : Bytes)
  | reset

/-- The state after a call, whatever its outcome. -/
def step (s : St σ) : Op → St σ
  | .send request => (send c h env cfg decode json request s).2
  | .reset => (reset s).2

/-- The state after a history of calls on a new transport object. -/
def history (w : σ) (ops : List Op) : St σ := ops.foldl (step c h env cfg decode json) { world := w }

end
end Kasa.Klap
