import Verif.Py.Crypto
import Verif.Model.ErrorCodes
/-!
# The AES transport

Models `AesTransport` and `AesEncyptionSession` (kasa/transports/aestransport.py).  The HTTP client, the device, the
clock, the cookies and the RSA key pair are an environment with an arbitrary state.  Times are integers in some unit
(floats in the code).  `request_time_milis` of the login request, headers and logging are omitted.
-/

namespace Kasa.Aes
open PyM

/-- `TransportState` (aestransport.py:55-60). -/
inductive Phase where
  | handshakeRequired
  | loginRequired
  | established
  deriving DecidableEq, Repr

/-- `AesEncyptionSession` (aestransport.py:396-414). -/
structure Session where
  key : Bytes
  iv : Bytes
  deriving DecidableEq, Repr

/-- `AesEncyptionSession(key_and_iv[:16], key_and_iv[16:])` (aestransport.py:410-414): the cipher refuses keys and IVs
of a wrong length. -/
def Session.make (keyAndIv : Bytes) : Option Session :=
  if keyAndIv.length = 32 then some ⟨keyAndIv.take 16, keyAndIv.drop 16⟩ else none

/-- Where a request is posted to: `_app_url` or `_token_url` (aestransport.py:115-116, 272). -/
inductive Url where
  | app
  | token (t : Json)
  deriving DecidableEq

/-- What is posted; the handshake carries the public key, the passthrough request the (base64 encoded) ciphertext. -/
inductive Body where
  | handshake
  | passthrough (ciphertext : Bytes)
  deriving DecidableEq

/-- (Ghost) which call posts. -/
inductive What where
  | handshake
  | login
  | request
  deriving DecidableEq

/-- The environment: HTTP exchanges (status and parsed body, or an exception of the HTTP client), the cookie jar, the
clock, decryption of the handshake key (`base64.b64decode` and `decrypt_handshake_key`, aestransport.py:404-406, `none`
when they raise), and `int()` of a cookie value. -/
structure Env (σ : Type) where
  post : Url → Body → Option String → σ → Except Exc (Int × Json) × σ
  cookie : String → σ → Option String
  now : σ → Int × σ
  openKey : Json → σ → Option Bytes
  int : String → Option Int

/-- What an observer of the environment sees. -/
inductive Ev where
  /-- the user calls `send` -/
  | call
  | post (what : What) (url : Url) (body : Body) (cookies : Option String) (outcome : Except Exc (Int × Json))
  | cookie (name : String) (value : Option String)
  | clock (t : Int)
  /-- the session key sent by the device was read, or was not usable -/
  | opened (key : Option Session)
  | reset
  deriving DecidableEq

/-- `AesTransport` state (aestransport.py:102-116) with the environment and its log. -/
structure St (σ : Type) where
  phase : Phase := .handshakeRequired
  session : Option Session := none
  expireAt : Option Int := none
  sessionCookie : Option String := none
  token : Option Json := none
  world : σ
  log : List Ev := []

/-- Login parameters of the user's and of the default credentials (aestransport.py:89-97, 134-150, 241-246), and the
encodings used: `json_dumps(..).encode()`, base64, UTF-8 decoding and `json_loads`. -/
structure Config where
  loginParams : Json
  defaultParams : Json
  dumps : Json → Bytes
  unb64 : String → Option Bytes
  decode : Bytes → Option String
  loads : String → Option Json

/-- The login request (aestransport.py:262-267). -/
def loginRequest (cfg : Config) (params : Json) : Bytes :=
  cfg.dumps (.obj [("method", .str "login_device"), ("params", params)])

section
variable {σ : Type} (c : BlockCipher) (env : Env σ) (cfg : Config)

/-- `await self._http_client.post(...)`. -/
def post (what : What) (url : Url) (body : Body) (cookies : Option String) : PyM (St σ) (Int × Json) := fun s =>
  ((env.post url body cookies s.world).1,
    { s with
      world := (env.post url body cookies s.world).2
      log := s.log ++ [.post what url body cookies (env.post url body cookies s.world).1] })

/-- `http_client.get_cookie(name)`. -/
def getCookie (name : String) : PyM (St σ) (Option String) := fun s =>
  (.ok (env.cookie name s.world), { s with log := s.log ++ [.cookie name (env.cookie name s.world)] })

/-- `time.time()`. -/
def now : PyM (St σ) Int := fun s =>
  (.ok (env.now s.world).1, { s with world := (env.now s.world).2, log := s.log ++ [.clock (env.now s.world).1] })

/-- `_handle_response_error_code` (aestransport.py:153-169) for the value found under `error_code`. -/
def handleRaw (raw : Option Json) : PyM (St σ) Unit :=
  match Codes.readCode raw with
  | .error e => raise e
  | .ok code =>
    if code = 0 then pure ()
    else
      match Codes.classify code with
      | .auth x => do
        modifyS fun s => { s with phase := .handshakeRequired }
        raise (.auth x)
      | e => raise e

/-- `_handle_response_error_code` (aestransport.py:152-169). -/
def handleCode (resp : Json) : PyM (St σ) Unit :=
  match resp with
  | .obj kvs => handleRaw (Dict.get? kvs "error_code")
  | _ => raise (.other "AttributeError")

/-- `resp["result"][k]`; the `TypeError` for values that are not dicts is taken to be a `KeyError` as well. -/
def resultOf (resp : Json) (k : String) : Except Exc Json :=
  match resp.get? "result" with
  | none => .error (.other "KeyError")
  | some r =>
    match r.get? k with
    | none => .error (.other "KeyError")
    | some v => .ok v

/-- Decrypting the answer, or taking it as plain JSON (aestransport.py:205-222). -/
def openResponse (ses : Session) (raw : Json) : Except Exc Json :=
  match raw with
  | .str text =>
    match (((cfg.unb64 text).bind (Crypto.decrypt c ses.key ses.iv)).bind cfg.decode).bind cfg.loads with
    | some v => .ok v
    | none =>
      match cfg.loads text with
      | some v => .ok v
      | none => .error .kasa
  | _ => .error .kasa

/-- Which address a passthrough request goes to (aestransport.py:173-176). -/
def targetUrl (s : St σ) : Url :=
  match s.phase, s.token with
  | .established, some t => .token t
  | _, _ => .app

/-- The session in use; `None.encrypt` when there is none (aestransport.py:178). -/
def currentSession : PyM (St σ) Session := fun s =>
  match s.session with
  | some ses => (.ok ses, s)
  | none => (.error (.other "AttributeError"), s)

/-- What is done with the answer to a passthrough request (aestransport.py:190-223). -/
def handleAnswer (ses : Session) (r : Int × Json) : PyM (St σ) Json :=
  if r.1 ≠ 200 then raise .kasa
  else do
    handleCode r.2
    let raw ← lift (resultOf r.2 "response")
    lift (openResponse c cfg ses raw)

/-- `send_secure_passthrough` (aestransport.py:171-223). -/
def securePassthrough (what : What) (request : Bytes) : PyM (St σ) Json := do
  let ses ← currentSession
  let s ← getS
  let r ← post env what (targetUrl s) (.passthrough (Crypto.encrypt c ses.key ses.iv request)) s.sessionCookie
  handleAnswer c cfg ses r

/-- `ONE_DAY_SECONDS` and `SESSION_EXPIRE_BUFFER_SECONDS` (aestransport.py:45-46). -/
def oneDay : Int := 86400
def buffer : Int := 1200

/-- `int(http_client.get_cookie(TIMEOUT) or ONE_DAY_SECONDS)` (aestransport.py:344-346). -/
def timeoutOf (value : Option String) : Except Exc Int :=
  match value with
  | some v =>
    if v = "" then .ok oneDay
    else
      match env.int v with
      | some n => .ok n
      | none => .error (.other "ValueError")
  | none => .ok oneDay

/-- The session cookie, under one of its two names (aestransport.py:337-342). -/
def takeCookie : PyM (St σ) Unit := do
  let cookie ← getCookie env "TP_SESSIONID"
  if cookie ≠ none ∧ cookie ≠ some "" then modifyS fun s => { s with sessionCookie := cookie }
  else do
    let cookie ← getCookie env "SESSIONID"
    if cookie ≠ none ∧ cookie ≠ some "" then modifyS fun s => { s with sessionCookie := cookie } else pure ()

/-- `AesEncyptionSession.create_from_keypair` (aestransport.py:400-410). -/
def openKey (key : Json) : PyM (St σ) Session := fun s =>
  match (env.openKey key s.world).bind Session.make with
  | some ses => (.ok ses, { s with log := s.log ++ [.opened (some ses)] })
  | none => (.error (.other "ValueError"), { s with log := s.log ++ [.opened none] })

/-- The rest of the handshake once its answer has arrived (aestransport.py:321-359). -/
def finishHandshake (r : Int × Json) : PyM (St σ) Unit :=
  if r.1 ≠ 200 then raise .kasa
  else do
    handleCode r.2
    let key ← lift (resultOf r.2 "key")
    takeCookie env
    let value ← getCookie env "TIMEOUT"
    let timeout ← lift (timeoutOf env value)
    let t ← now env
    modifyS fun s => { s with expireAt := some (t + timeout - buffer) }
    let session ← openKey env key
    modifyS fun s => { s with session := some session, phase := .loginRequired }

/-- `perform_handshake` (aestransport.py:300-359).  The key pair is created on first use; that is left out. -/
def performHandshake : PyM (St σ) Unit := do
  modifyS fun s => { s with token := none, expireAt := none, sessionCookie := none }
  let r ← post env .handshake .app .handshake none
  finishHandshake env r

/-- `try_login` (aestransport.py:260-273). -/
def tryLogin (params : Json) : PyM (St σ) Unit := do
  let resp ← securePassthrough c env cfg .login (loginRequest cfg params)
  handleCode resp
  let token ← lift (resultOf resp "token")
  modifyS fun s => { s with token := some token, phase := .established }

/-- `perform_login` (aestransport.py:225-258). -/
def performLogin : PyM (St σ) Unit :=
  tryExcept (tryLogin c env cfg cfg.loginParams) fun ex =>
    match ex with
    | .auth code =>
      tryExcept
        (if code ≠ some Codes.loginError then raise ex
         else do
          performHandshake env
          tryLogin c env cfg cfg.defaultParams)
        fun ex' =>
          match ex' with
          | .auth _ | .connection | .timeout | .base => raise ex'
          | _ => raise .kasa
    | _ => raise ex

/-- `_handshake_session_expired` (aestransport.py:361-366). -/
def sessionExpired : PyM (St σ) Bool := do
  match (← getS).expireAt with
  | none => pure true
  | some d => do
    let t ← now env
    pure (decide (d - t ≤ 0))

/-- The first condition of `send` (aestransport.py:370-373). -/
def needsHandshake : PyM (St σ) Bool := do
  if (← getS).phase = .handshakeRequired then pure true else sessionExpired env

/-- The first statement of `send` (aestransport.py:370-374). -/
def ensureHandshake : PyM (St σ) Unit := do
  let needed ← needsHandshake env
  if needed then performHandshake env else pure ()

/-- The second statement of `send` (aestransport.py:375-382). -/
def ensureLogin : PyM (St σ) Unit := do
  let s ← getS
  if s.phase ≠ .established then
    tryExcept (performLogin c env cfg) fun ex =>
      match ex with
      | .auth _ => do
        modifyS fun s => { s with phase := .handshakeRequired }
        raise ex
      | _ => raise ex
  else pure ()

/-- `AesTransport.send` (aestransport.py:368-384). -/
def send (request : Bytes) : PyM (St σ) Json := do
  modifyS fun s => { s with log := s.log ++ [.call] }
  ensureHandshake env
  ensureLogin c env cfg
  securePassthrough c env cfg .request request

/-- `AesTransport.reset` (aestransport.py:391-393). -/
def reset : PyM (St σ) Unit :=
  modifyS fun s => { s with phase := .handshakeRequired, log := s.log ++ [.reset] }

/-- One call on a transport object. -/
inductive Op where
  | send (request : Bytes)
  | reset
  deriving DecidableEq

/-- The state after a call, whatever its outcome. -/
def step (s : St σ) : Op → St σ
  | .send request => (send c env cfg request s).2
  | .reset => (reset s).2

/-- The state after a history of calls on a new transport object. -/
def history (w : σ) (ops : List Op) : St σ := ops.foldl (step c env cfg) { world := w }

end
end Kasa.Aes
