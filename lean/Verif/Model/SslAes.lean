import Verif.Py.Crypto
import Verif.Model.ErrorCodes
import Verif.Model.Aes
/-!
# The camera transport

Models `SslAesTransport` (kasa/transports/sslaestransport.py).  The HTTP client, the device and the source of nonces are
an environment with an arbitrary state.  Text is represented by its UTF-8 bytes where only its bytes matter.  Headers
other than `Seq` and `Tapo_tag`, the TLS context and logging are omitted.
-/

namespace Kasa.SslAes
open PyM

/-- `TransportState` (sslaestransport.py:52-57). -/
inductive Phase where
  | handshakeRequired
  | established
  deriving DecidableEq, Repr

/-- `AesEncyptionSession` (aestransport.py:396-414). -/
structure Key where
  key : Bytes
  iv : Bytes
  deriving DecidableEq, Repr

/-- `_app_url`, or `_token_url` with its `stok` (sslaestransport.py:108-109, 422, 464). -/
inductive Url where
  | app
  | token (stok : Json)
  deriving DecidableEq

/-- What is posted. -/
inductive Body where
  /-- `try_send_handshake1` (sslaestransport.py:620-627) -/
  | probe (username : String) (nonce : Bytes)
  /-- `perform_handshake2` (sslaestransport.py:437-445) -/
  | digestLogin (username : Option String) (nonce digest : Bytes)
  /-- `try_perform_less_secure_login` (sslaestransport.py:394-401) -/
  | md5Login (username : String) (hash : Bytes)
  /-- `send_secure_passthrough` (sslaestransport.py:225-229); the ciphertext is base64 encoded on the wire -/
  | passthrough (ciphertext : Bytes)
  /-- `send_unencrypted` (sslaestransport.py:317-319) -/
  | plain (request : Bytes)
  deriving DecidableEq

/-- The headers `Seq` and `Tapo_tag` (sslaestransport.py:237). -/
structure Tag where
  seq : Int
  tag : Bytes
  deriving DecidableEq

/-- The environment: HTTP exchanges (status and body, or an exception of the HTTP client) and the random nonces
(`secrets.token_bytes(8).hex().upper()`). -/
structure Env (σ : Type) where
  post : Url → Body → Option Tag → σ → Except Exc (Int × Json) × σ
  nonce : σ → Bytes × σ

/-- What an observer of the network sees. -/
inductive Ev where
  | post (url : Url) (body : Body) (tag : Option Tag) (outcome : Except Exc (Int × Json))
  | reset
  deriving DecidableEq

/-- Credentials and encodings.  `creds`: the credentials given, if not the empty ones; `stored`: those in the
credentials hash, if these are used (sslaestransport.py:93-96, 121-127); `wrap`: the text of the passthrough request
with a ciphertext in it. -/
structure Config where
  creds : Option (String × String)
  stored : Option (String × String)
  defaults : String × String
  encode : String → Bytes
  wrap : Bytes → Bytes
  unb64 : String → Option Bytes
  decode : Bytes → Option String
  loads : String → Option Json

/-- `_username` as the constructor sets it (sslaestransport.py:119-127). -/
def Config.username (cfg : Config) : Option String :=
  match cfg.creds with
  | some x => some x.1
  | none => cfg.stored.map Prod.fst

/-- `SslAesTransport` state (sslaestransport.py:97-129). -/
structure St (σ : Type) where
  phase : Phase := .handshakeRequired
  session : Option Key := none
  token : Option Json := none
  seq : Json := .null
  pwdHash : Option Bytes := none
  username : Option String
  localNonce : Option Bytes := none
  sendSecure : Bool := true
  world : σ
  log : List Ev := []

/-- One hexadecimal digit, upper case. -/
def hexDigit (n : Nat) : UInt8 := UInt8.ofNat (if n < 10 then 48 + n else 55 + n)

/-- `.hexdigest().upper()`. -/
def hexUpper (b : Bytes) : Bytes := b.flatMap fun x => [hexDigit (x.toNat / 16), hexDigit (x.toNat % 16)]

/-- `_sha256_hash` (sslaestransport.py:48-49). -/
def shaHex (h : Hashes) (b : Bytes) : Bytes := hexUpper (h.sha256 b)
/-- `_md5_hash` (sslaestransport.py:44-45). -/
def md5Hex (h : Hashes) (b : Bytes) : Bytes := hexUpper (h.md5 b)

/-- `generate_confirm_hash` (sslaestransport.py:336-344). -/
def confirmHash (h : Hashes) (localNonce serverNonce pwdHash : Bytes) : Bytes :=
  shaHex h (localNonce ++ pwdHash ++ serverNonce) ++ serverNonce ++ localNonce

/-- `generate_digest_password` (sslaestransport.py:346-356). -/
def digestPassword (h : Hashes) (localNonce serverNonce pwdHash : Bytes) : Bytes :=
  shaHex h (pwdHash ++ localNonce ++ serverNonce) ++ localNonce ++ serverNonce

/-- `generate_encryption_token` (sslaestransport.py:358-371). -/
def encryptionToken (h : Hashes) (tokenType localNonce serverNonce pwdHash : Bytes) : Bytes :=
  (h.sha256 (tokenType ++ localNonce ++ serverNonce ++ shaHex h (localNonce ++ pwdHash ++ serverNonce))).take 16

/-- `generate_tag` (sslaestransport.py:373-380). -/
def generateTag (h : Hashes) (cfg : Config) (request localNonce pwdHash : Bytes) (seq : Int) : Bytes :=
  shaHex h (shaHex h (pwdHash ++ localNonce) ++ request ++ cfg.encode (toString seq))

/-- `SmartErrorCode` members used here (exceptions.py:125-150). -/
def sessionExpired : Int := -40401
def deviceBlocked : Int := -40404
def badUsername : Int := -40411
def invalidNonce : Int := -40413

/-- `x.get(k)`: `AttributeError` unless `x` is a dict. -/
def getOpt (x : Json) (k : String) : Except Exc (Option Json) :=
  match x with
  | .obj kvs => .ok (Dict.get? kvs k)
  | _ => .error (.other "AttributeError")

/-- `x.get(k, {})`. -/
def getDict (x : Json) (k : String) : Except Exc Json :=
  match getOpt x k with
  | .ok (some v) => .ok v
  | .ok none => .ok (.obj [])
  | .error e => .error e

/-- `_get_response_error` (sslaestransport.py:156-165). -/
def responseError (resp : Json) : Except Exc Int := do
  Codes.readCode (← getOpt resp "error_code")

/-- `None` for a JSON `null`. -/
def notNull : Option Json → Option Json
  | some .null => none
  | x => x

/-- The value under `code` looked for by `_get_response_inner_error` (sslaestransport.py:170-173). -/
def innerRaw (resp : Json) : Except Exc (Option Json) := do
  let data ← getDict resp "data"
  match notNull (← getOpt data "code") with
  | some v => pure (some v)
  | none => do
    let result ← getDict resp "result"
    let data ← getDict result "data"
    getOpt data "code"

/-- `_get_response_inner_error` (sslaestransport.py:167-185). -/
def innerError (resp : Json) : Except Exc (Option Int) := do
  match notNull (← innerRaw resp) with
  | none => pure none
  | some v => do
    let code ← Codes.readCode (some v)
    pure (some code)

/-- `_is_less_secure_login` (sslaestransport.py:489-502). -/
def isLessSecure (resp : Json) : Except Exc Bool := do
  let code ← responseError resp
  if code ≠ sessionExpired then pure false
  else do
    let data ← getDict (← getDict resp "result") "data"
    if data.truthy = false then pure false
    else do
      match ← getOpt data "encrypt_type" with
      | none => pure false
      | some t => pure (t.truthy && !decide (t = .arr [.str "3"]))

/-- `"nonce" in x`; for anything but a dict this is taken to raise (for a list or a string it may not, but the next
statements raise). -/
def nonceIn (x : Json) : Except Exc Bool :=
  match x with
  | .obj kvs => .ok (Dict.has kvs "nonce")
  | _ => .error (.other "TypeError")

/-- `error_code is INVALID_NONCE and "nonce" in resp["result"].get("data", {})` (sslaestransport.py:525-529,
536-540). -/
def offersSecure (resp : Json) : Except Exc Bool := do
  let code ← responseError resp
  if code ≠ invalidNonce then pure false
  else
    match resp.get? "result" with
    | none => .error (.other "KeyError")
    | some r => do nonceIn (← getDict r "data")

/-- `x[k]` of a JSON value; the `TypeError` for values that are not dicts is taken to be a `KeyError` as well. -/
def item (x : Json) (k : String) : Except Exc Json :=
  match x.get? k with
  | some v => .ok v
  | none => .error (.other "KeyError")

/-- `_seq` as a number: anything but an integer cannot be incremented (sslaestransport.py:238; the model excludes
booleans and floats). -/
def asInt : Json → Except Exc Int
  | .num n => .ok n
  | _ => .error (.other "TypeError")

/-- An attribute that is not `None`. -/
def need {α : Type} : Option α → Except Exc α
  | some a => .ok a
  | none => .error (.other "AttributeError")

/-- A `str` attribute that is not empty (or `None`). -/
def nonEmpty : Option String → Option String
  | some u => if u = "" then none else some u
  | none => none

section
variable {σ : Type} (c : BlockCipher) (h : Hashes) (env : Env σ) (cfg : Config)

/-- `_pwd_to_hash` (sslaestransport.py:479-487). -/
def pwdToHash (s : St σ) : String :=
  match cfg.creds with
  | some x => x.2
  | none =>
    match nonEmpty s.username, nonEmpty (cfg.stored.map Prod.snd) with
    | some _, some p => p
    | _, _ => cfg.defaults.2

/-- `await self._http_client.post(...)`. -/
def post (url : Url) (body : Body) (tag : Option Tag) : PyM (St σ) (Int × Json) := fun s =>
  ((env.post url body tag s.world).1,
    { s with
      world := (env.post url body tag s.world).2
      log := s.log ++ [.post url body tag (env.post url body tag s.world).1] })

/-- `secrets.token_bytes(8).hex().upper()`. -/
def drawNonce : PyM (St σ) Bytes := fun s => (.ok (env.nonce s.world).1, { s with world := (env.nonce s.world).2 })

/-- `_handle_response_error_code` (sslaestransport.py:186-196) for the value found under `error_code`. -/
def handleRaw (raw : Option Json) : PyM (St σ) Unit :=
  match Codes.readCode raw with
  | .error e => raise e
  | .ok code =>
    if code = 0 then pure ()
    else
      match Codes.classify code with
      | .auth x => do
        modifyS fun s => { s with phase := .handshakeRequired }
        raise (.auth x)
      | e => raise e

/-- `_handle_response_error_code` (sslaestransport.py:186-196). -/
def handleCode (resp : Json) : PyM (St σ) Unit :=
  match resp with
  | .obj kvs => handleRaw (Dict.get? kvs "error_code")
  | _ => raise (.other "AttributeError")

/-- Decrypting the answer, or taking it as plain JSON (sslaestransport.py:290-306). -/
def openResponse (ses : Key) (raw : Json) : Except Exc Json :=
  match raw with
  | .str text =>
    match (((cfg.unb64 text).bind (Crypto.decrypt c ses.key ses.iv)).bind cfg.decode).bind cfg.loads with
    | some v => .ok v
    | none =>
      match cfg.loads text with
      | some v => .ok v
      | none => .error .kasa
  | _ => .error .kasa

/-- The answer to a request that was accepted (sslaestransport.py:284-306).  A `result` that is a string or a list is
taken not to contain "response". -/
def openAnswer (ses : Key) (resp : Json) : Except Exc Json :=
  match resp.get? "result" with
  | none => .ok resp
  | some (.obj kvs) =>
    match Dict.get? kvs "response" with
    | some raw => openResponse c cfg ses raw
    | none => .ok resp
  | some (.str _) | some (.arr _) => .ok resp
  | some _ => .error (.other "TypeError")

/-- A response with status 500 (sslaestransport.py:251-269). -/
def serverError (resp : Json) : Exc :=
  match resp with
  | .obj _ =>
    match getDict resp "result" with
    | .ok (.obj _) => .retryable none
    | _ => .other "AttributeError"
  | _ => .retryable none

/-- What is done with the answer to a passthrough request (sslaestransport.py:251-306). -/
def handleAnswer (ses : Key) (r : Int × Json) : PyM (St σ) Json :=
  if r.1 = 500 then raise (serverError r.2)
  else if r.1 ≠ 200 then raise .kasa
  else do
    handleCode r.2
    lift (openAnswer c cfg ses r.2)

/-- Which address a passthrough request goes to (sslaestransport.py:215-218). -/
def targetUrl (s : St σ) : Url :=
  match s.phase, s.token with
  | .established, some t => .token t
  | _, _ => .app

/-- `send_secure_passthrough` (sslaestransport.py:213-306). -/
def securePassthrough (request : Bytes) : PyM (St σ) Json := do
  let s ← getS
  let ses ← lift (need s.session)
  let pwd ← lift (need s.pwdHash)
  let nonce ← lift (need s.localNonce)
  let seq ← lift (asInt s.seq)
  modifyS fun s => { s with seq := .num (seq + 1) }
  let r ← post env (targetUrl s) (.passthrough (Crypto.encrypt c ses.key ses.iv request))
    (some ⟨seq, generateTag h cfg (cfg.wrap (Crypto.encrypt c ses.key ses.iv request)) nonce pwd seq⟩)
  handleAnswer c cfg ses r

/-- What is done with the answer to an unencrypted request (sslaestransport.py:324-334). -/
def handlePlain (r : Int × Json) : PyM (St σ) Json :=
  if r.1 ≠ 200 then raise .kasa
  else do
    handleCode r.2
    pure r.2

/-- `send_unencrypted` (sslaestransport.py:308-334).  Posting to `None` fails in the HTTP client. -/
def sendUnencrypted (request : Bytes) : PyM (St σ) Json := do
  match (← getS).token with
  | none => raise .kasa
  | some t => do
    let r ← post env (.token t) (.plain request) none
    handlePlain r

/-- The rest of the less secure login once its answer has arrived (sslaestransport.py:409-427). -/
def finishLessSecure (hash : Bytes) (r : Int × Json) : PyM (St σ) Bool :=
  if r.1 ≠ 200 then raise .kasa
  else do
    let code ← lift (getOpt r.2 "error_code")
    if code = some (.num 0) ∨ code = some (.bool false) then do
      let result ← lift (getDict r.2 "result")
      let stok ← lift (getOpt result "stok")
      match stok with
      | none => pure false
      | some t =>
        if t.truthy then do
          modifyS fun s => { s with sendSecure := false, token := some t, pwdHash := some hash }
          pure true
        else pure false
    else pure false

/-- `try_perform_less_secure_login` (sslaestransport.py:389-427). -/
def lessSecureLogin (username password : String) : PyM (St σ) Bool := do
  let r ← post env .app (.md5Login username (md5Hex h (cfg.encode password))) none
  finishLessSecure (md5Hex h (cfg.encode password)) r

/-- `try_send_handshake1` (sslaestransport.py:616-645). -/
def probe (username : String) (nonce : Bytes) : PyM (St σ) Json := do
  let r ← post env .app (.probe username nonce) none
  if r.1 ≠ 200 then raise .kasa else pure r.2

/-- The first probe of `perform_handshake1`, with the user's name (sslaestransport.py:506-509). -/
def firstProbe : PyM (St σ) (Option (Bytes × Json)) := do
  match nonEmpty (← getS).username with
  | none => pure none
  | some u => do
    let nonce ← drawNonce env
    let resp ← probe env u nonce
    pure (some (nonce, resp))

/-- The less secure login with the user's name, when the device asks for it (sslaestransport.py:511-519). -/
def userLessSecure (first : Option (Bytes × Json)) : PyM (St σ) Bool :=
  match first with
  | none => pure false
  | some (_, resp) =>
    if resp.truthy = false then pure false
    else do
      let less ← lift (isLessSecure resp)
      if less = false then pure false
      else do
        let inner ← lift (innerError resp)
        if inner = some badUsername then pure false
        else do
          let s ← getS
          lessSecureLogin h env cfg (s.username.getD "") (pwdToHash cfg s)

/-- Whether the first probe was answered with the offer of a secure login (sslaestransport.py:524-529). -/
def firstOffers (first : Option (Bytes × Json)) : Except Exc Bool :=
  match first with
  | none => .ok false
  | some (_, resp) => if resp.truthy then offersSecure resp else .ok false

/-- What `perform_handshake1` has found out after the probes: the last nonce, the error code (`none`: the variable is
not bound) and the response. -/
structure Found where
  nonce : Bytes
  code : Option Int
  resp : Option Json

/-- The error code and the response of the first probe. -/
def firstFound (nonce : Bytes) (first : Option (Bytes × Json)) : Except Exc Found :=
  match first with
  | none => .ok ⟨nonce, none, none⟩
  | some (_, resp) =>
    if resp.truthy then
      match responseError resp with
      | .ok code => .ok ⟨nonce, some code, some resp⟩
      | .error e => .error e
    else .ok ⟨nonce, none, some resp⟩

/-- The second probe, with the default name (sslaestransport.py:531-553); `none`: logged in. -/
def defaultProbe (first : Option (Bytes × Json)) : PyM (St σ) (Option Found) := do
  let nonce ← drawNonce env
  let resp ← probe env cfg.defaults.1 nonce
  let offers ← lift (offersSecure resp)
  if offers then do
    modifyS fun s => { s with username := some cfg.defaults.1 }
    pure (some ⟨nonce, some invalidNonce, some resp⟩)
  else do
    let less ← lift (isLessSecure resp)
    if less = false then do
      let found ← lift (firstFound nonce first)
      pure (some found)
    else do
      let s ← getS
      let done ← lessSecureLogin h env cfg cfg.defaults.1 (pwdToHash cfg s)
      if done then do
        modifyS fun s => { s with username := some cfg.defaults.1, phase := .established }
        pure none
      else do
        let found ← lift (firstFound nonce first)
        pure (some found)

/-- Whether the response found is not the offer of a secure login (sslaestransport.py:564-566). -/
def noOffer (code : Int) (resp : Option Json) : Except Exc Bool :=
  if code ≠ invalidNonce then .ok true
  else
    match resp with
    | none => .ok false
    | some r =>
      if r.truthy = false then .ok false
      else do
        let has ← nonceIn (← getDict (← getDict r "result") "data")
        pure (!has)

/-- The error raised without an offer (sslaestransport.py:567-578). -/
def offerError (resp : Option Json) : Except Exc Exc :=
  match resp with
  | none => .ok (.auth none)
  | some r =>
    if r.truthy = false then .ok (.auth none)
    else do
      let inner ← innerError r
      if inner = some deviceBlocked then do
        let _ ← getOpt (← getDict r "data") "sec_left"
        pure (.device (some deviceBlocked))
      else pure (.auth none)

/-- The nonce of the device and its proof of knowing the password, as texts (sslaestransport.py:583-584). -/
def deviceProof (resp : Json) : Except Exc (String × Json) := do
  let data ← item (← item resp "result") "data"
  let nonce ← item data "nonce"
  let confirm ← item data "device_confirm"
  match nonce with
  | .str n => pure (n, confirm)
  | _ => .error (.other "AttributeError")

/-- The comparison of texts, made on their bytes. -/
def sameText (x : Json) (b : Bytes) : Bool :=
  match x with
  | .str t => cfg.encode t == b
  | _ => false

/-- The check of the device's proof (sslaestransport.py:583-614): local nonce, server nonce, password hash. -/
def checkProof (nonce : Bytes) (resp : Json) : PyM (St σ) (Bytes × Bytes × Bytes) := do
  let p ← lift (deviceProof resp)
  let s ← getS
  let server := cfg.encode p.1
  let sha := shaHex h (cfg.encode (pwdToHash cfg s))
  let md5 := md5Hex h (cfg.encode (pwdToHash cfg s))
  if sameText cfg p.2 (confirmHash h nonce server sha) then pure (nonce, server, sha)
  else if sameText cfg p.2 (confirmHash h nonce server md5) then pure (nonce, server, md5)
  else raise (.auth none)

/-- The end of `perform_handshake1` (sslaestransport.py:557-614). -/
def finishHandshake1 (found : Found) : PyM (St σ) (Bytes × Bytes × Bytes) := do
  let s ← getS
  if nonEmpty s.username = none then raise (.auth none)
  else
    match found.code with
    | none => raise (.other "UnboundLocalError")
    | some code => do
      let bad ← lift (noOffer code found.resp)
      if bad then do
        let e ← lift (offerError found.resp)
        raise e
      else
        match found.resp with
        | none => raise (.other "TypeError")
        | some resp => checkProof h cfg found.nonce resp

/-- The probes of `perform_handshake1` (sslaestransport.py:504-553); `none`: logged in. -/
def probes : PyM (St σ) (Option Found) := do
  let first ← firstProbe env
  let done ← userLessSecure h env cfg first
  if done then do
    modifyS fun s => { s with phase := .established }
    pure none
  else do
    let offers ← lift (firstOffers first)
    match offers, first with
    | true, some (nonce, resp) => pure (some ⟨nonce, some invalidNonce, some resp⟩)
    | _, _ => defaultProbe h env cfg first

/-- `perform_handshake2` (sslaestransport.py:446-477), from the answer on. -/
def finishHandshake2 (nonce server pwd : Bytes) (r : Int × Json) : PyM (St σ) Unit :=
  if r.1 ≠ 200 then raise .kasa
  else do
    let code ← lift (responseError r.2)
    if code = invalidNonce then raise (.auth none)
    else do
      handleCode r.2
      let seq ← lift (Aes.resultOf r.2 "start_seq")
      modifyS fun s => { s with seq := seq }
      let stok ← lift (Aes.resultOf r.2 "stok")
      modifyS fun s => { s with
        token := some stok
        pwdHash := some pwd
        localNonce := some nonce
        session := some ⟨encryptionToken h (cfg.encode "lsk") nonce server pwd,
          encryptionToken h (cfg.encode "ivb") nonce server pwd⟩
        phase := .established }

/-- `perform_handshake2` (sslaestransport.py:429-477). -/
def performHandshake2 (nonce server pwd : Bytes) : PyM (St σ) Unit := do
  let s ← getS
  let r ← post env .app (.digestLogin s.username nonce (digestPassword h nonce server pwd)) none
  finishHandshake2 h cfg nonce server pwd r

/-- `perform_handshake` (sslaestransport.py:382-387). -/
def performHandshake : PyM (St σ) Unit := do
  let found ← probes h env cfg
  match found with
  | none => pure ()
  | some f => do
    let x ← finishHandshake1 h cfg f
    performHandshake2 h env cfg x.1 x.2.1 x.2.2

/-- The first statement of `send` (sslaestransport.py:649-650). -/
def ensureHandshake : PyM (St σ) Unit := do
  let s ← getS
  if s.phase = .handshakeRequired then performHandshake h env cfg else pure ()

/-- `SslAesTransport.send` (sslaestransport.py:647-655). -/
def send (request : Bytes) : PyM (St σ) Json := do
  ensureHandshake h env cfg
  let s ← getS
  if s.sendSecure then securePassthrough c h env cfg request else sendUnencrypted env request

/-- `SslAesTransport.reset` (sslaestransport.py:662-668): `_send_secure`, `_token_url` and `_username` keep their
values. -/
def reset : PyM (St σ) Unit :=
  modifyS fun s => { s with
    phase := .handshakeRequired
    session := none
    seq := .num 0
    pwdHash := none
    localNonce := none
    log := s.log ++ [.reset] }

/-- One call on a transport object. -/
inductive Op where
  | send (request : Bytes)
  | reset
  deriving DecidableEq

/-- The state after a call, whatever its outcome. -/
def step (s : St σ) : Op → St σ
  | .send request => (send c h env cfg request s).2
  | .reset => (reset s).2

/-- The state after a history of calls on a new transport object. -/
def history (w : σ) (ops : List Op) : St σ :=
  ops.foldl (step c h env cfg) { username := cfg.username, world := w }

end
end Kasa.SslAes
