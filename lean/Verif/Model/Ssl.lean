import Verif.Model.ErrorCodes
import Verif.Model.Aes
/-!
# The HTTPS transport without further encryption

Models `SslTransport` (kasa/transports/ssltransport.py:53-235), used by robot vacuums.  The HTTP client, the device and
the clock are an environment with an arbitrary state.  Times are integers in some unit (floats in the code).  The JSON
text of the login request, headers, the pause before the second login and logging are omitted.
-/

namespace Kasa.Ssl
open PyM

/-- Where a request is posted to: `_app_url` without and with a token (ssltransport.py:90, 205, 235). -/
inductive Url where
  | app
  | token (t : Json)
  deriving DecidableEq

/-- What is posted: a login with its parameters (ssltransport.py:194-198) or the caller's request as it is. -/
inductive Body where
  | login (params : Json)
  | request (text : Bytes)
  deriving DecidableEq

/-- What the HTTP client raises (httpclient.py:134-156); `cancelled` is a `BaseException`. -/
inductive HttpError where
  | connection
  | timeout
  | kasa
  | cancelled
  deriving DecidableEq

/-- The exception (httpclient.py:144, 148, 154). -/
def HttpError.exc : HttpError → Exc
  | .connection => .connection
  | .timeout => .timeout
  | .kasa => .kasa
  | .cancelled => .base

/-- The environment: HTTP exchanges (status and parsed body, or an exception of the HTTP client) and the clock. -/
structure Env (σ : Type) where
  post : Url → Body → σ → Except HttpError (Int × Json) × σ
  now : σ → Int × σ

/-- What an observer of the environment sees. -/
inductive Ev where
  /-- the user calls `send` -/
  | call
  | post (url : Url) (body : Body) (outcome : Except HttpError (Int × Json))
  | clock (t : Int)
  | reset
  deriving DecidableEq

/-- `SslTransport` state (ssltransport.py:87-90) with the environment and its log. -/
structure St (σ : Type) where
  established : Bool := false
  expireAt : Option Int := none
  url : Url := .app
  world : σ
  log : List Ev := []

/-- `_login_params` (ssltransport.py:77-82) and those of the default credentials (ssltransport.py:172-178). -/
structure Config where
  loginParams : Json
  defaultParams : Json

section
variable {σ : Type} (env : Env σ) (cfg : Config)

/-- `await self._http_client.post(...)` to the current address (ssltransport.py:137-145). -/
def post (body : Body) : PyM (St σ) (Int × Json) := fun s =>
  ((env.post s.url body s.world).1.mapError HttpError.exc,
    { s with
      world := (env.post s.url body s.world).2
      log := s.log ++ [.post s.url body (env.post s.url body s.world).1] })

/-- `time.time()`. -/
def now : PyM (St σ) Int := fun s =>
  (.ok (env.now s.world).1, { s with world := (env.now s.world).2, log := s.log ++ [.clock (env.now s.world).1] })

/-- What `reset` does (ssltransport.py:232-235). -/
def down (s : St σ) : St σ := { s with established := false, url := .app }

/-- `_handle_response_error_code` (ssltransport.py:118-133): the enum lookup is not guarded. -/
def handleRaw (raw : Option Json) : PyM (St σ) Unit :=
  match Codes.fromInt raw with
  | .valueError | .typeError => raise (.other "ValueError")
  | .code code =>
    if code = 0 then pure ()
    else
      match Codes.classify code with
      | .auth x => do
        modifyS down
        raise (.auth x)
      | e => raise e

/-- `resp_dict.get("error_code")`, then the above (ssltransport.py:118-120). -/
def handleCode (resp : Json) : PyM (St σ) Unit :=
  match resp with
  | .obj kvs => handleRaw (Dict.get? kvs "error_code")
  | _ => raise (.other "AttributeError")

/-- `send_request` (ssltransport.py:135-160). -/
def sendRequest (body : Body) : PyM (St σ) Json := do
  let r ← post env body
  if r.1 ≠ 200 then raise .kasa
  else do
    handleCode r.2
    pure r.2

/-- `try_login` (ssltransport.py:192-209). -/
def tryLogin (params : Json) : PyM (St σ) Unit := do
  let resp ← sendRequest env (.login params)
  handleCode resp
  let token ← lift (Aes.resultOf resp "token")
  modifyS fun s => { s with url := .token token, established := true }
  let t ← now env
  modifyS fun s => { s with expireAt := some (t + Aes.oneDay - Aes.buffer) }

/-- `perform_login` (ssltransport.py:162-190). -/
def performLogin : PyM (St σ) Unit :=
  tryExcept (tryLogin env cfg.loginParams) fun ex =>
    match ex with
    | .auth code =>
      if code ≠ some Codes.loginError then raise ex
      else
        tryExcept (tryLogin env cfg.defaultParams) fun ex' =>
          match ex' with
          | .auth _ | .base => raise ex'
          | _ => raise .kasa
    | _ => raise ex

/-- `_session_expired` (ssltransport.py:211-216). -/
def sessionExpired : PyM (St σ) Bool := do
  match (← getS).expireAt with
  | none => pure true
  | some d => do
    let t ← now env
    pure (decide (d - t ≤ 0))

/-- The condition at the start of `send` (ssltransport.py:221). -/
def needsLogin : PyM (St σ) Bool := do
  if (← getS).established then sessionExpired env else pure true

/-- The first statement of `send` (ssltransport.py:221-223). -/
def ensureLogin : PyM (St σ) Unit := do
  let needed ← needsLogin env
  if needed then performLogin env cfg else pure ()

/-- `SslTransport.send` (ssltransport.py:218-225). -/
def send (request : Bytes) : PyM (St σ) Json := do
  modifyS fun s => { s with log := s.log ++ [.call] }
  ensureLogin env cfg
  sendRequest env (.request request)

/-- `SslTransport.reset` (ssltransport.py:232-235); `close` does the same and closes the HTTP client
(ssltransport.py:227-230). -/
def reset : PyM (St σ) Unit := modifyS fun s => down { s with log := s.log ++ [.reset] }

/-- One call on a transport object. -/
inductive Op where
  | send (request : Bytes)
  | reset
  deriving DecidableEq

/-- The state after a call, whatever its outcome. -/
def step (s : St σ) : Op → St σ
  | .send request => (send env cfg request s).2
  | .reset => (reset s).2

/-- The state after a history of calls on a new transport object. -/
def history (w : σ) (ops : List Op) : St σ := ops.foldl (step env cfg) { world := w }

end
end Kasa.Ssl
