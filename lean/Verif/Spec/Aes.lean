import Verif.Model.Aes
import Verif.Spec.ErrorCodes
/-!
# Specification of the AES transport's traffic, as an observer of the network, the clock and the cookies sees it
-/

namespace Kasa.AesSpec
open Aes

/-- The device reports success. -/
def successful (resp : Json) : Bool :=
  resp.get? "error_code" == some (.num 0) || resp.get? "error_code" == some (.bool false)

/-- The device reports an authentication error: the session is not valid any more. -/
def refused (resp : Json) : Bool :=
  match resp.get? "error_code" with
  | some (.num n) => decide (CodesSpec.Authentication n)
  | _ => false

/-- `resp["result"][k]`. -/
def result (resp : Json) (k : String) : Option Json := (resp.get? "result").bind fun r => r.get? k

/-- The answer inside the response to a passthrough request: decrypted with the session key or, failing that, plain. -/
def answer (c : BlockCipher) (cfg : Config) (key : Session) (resp : Json) : Option Json :=
  if successful resp then
    match result resp "response" with
    | some (.str text) =>
      ((((cfg.unb64 text).bind (Crypto.decrypt c key.key key.iv)).bind cfg.decode).bind cfg.loads).or (cfg.loads text)
    | _ => none
  else none

/-- What the observer remembers. -/
structure Obs where
  /-- a handshake is in progress -/
  negotiating : Bool := false
  /-- the last handshake ended with a session key that could not be read -/
  badKey : Bool := false
  /-- the key of the session, once its handshake is complete, unless it was reset or refused since -/
  key : Option Session := none
  /-- the token of the login in that session -/
  token : Option Json := none
  /-- session lifetime announced by the device -/
  timeout : Int := 86400
  /-- when the session must not be used any more -/
  deadline : Option Int := none
  /-- the handshake was completed during the current call -/
  fresh : Bool := false
  /-- the last clock reading of the current call outside of a handshake -/
  now : Option Int := none

/-- The lifetime announced with the `TIMEOUT` cookie, a day without it. -/
def lifetime (int : String → Option Int) (value : Option String) : Int :=
  match value with
  | some v => if v = "" then 86400 else (int v).getD 0
  | none => 86400

/-- The session is not valid any more. -/
def Obs.down (o : Obs) : Obs := { o with key := none, token := none }

/-- What the answer to a login tells. -/
def seeLogin (c : BlockCipher) (cfg : Config) (o : Obs) (resp : Json) : Obs :=
  if refused resp then o.down
  else
    match o.key.bind fun k => answer c cfg k resp with
    | none => o
    | some v =>
      if refused v then o.down
      else if successful v then
        match result v "token" with
        | some t => { o with token := some t }
        | none => o
      else o

/-- How an event changes what the observer remembers. -/
def see (c : BlockCipher) (cfg : Config) (int : String → Option Int) (o : Obs) : Ev → Obs
  | .call => { o with fresh := false, now := none }
  | .post .handshake _ _ _ _ => { negotiating := true, now := o.now }
  | .post .login _ _ _ outcome =>
    match outcome with
    | .ok (200, resp) => seeLogin c cfg o resp
    | _ => o
  | .post .request _ _ _ outcome =>
    match outcome with
    | .ok (200, resp) => if refused resp then o.down else o
    | _ => o
  | .cookie name value =>
    if name = "TIMEOUT" then
      { o with timeout := lifetime int value }
    else o
  | .clock t => if o.negotiating then { o with deadline := some (t + o.timeout - 1200) } else { o with now := some t }
  | .opened (some k) => { o with negotiating := false, key := some k, fresh := true }
  | .opened none => { o with negotiating := false, badKey := true }
  | .reset => o.down

/-- What the observer remembers after a history. -/
def observe (c : BlockCipher) (cfg : Config) (int : String → Option Int) (log : List Ev) : Obs :=
  log.foldl (see c cfg int) {}

/-- The session is up and was established in this call, or was found not to have run out in this call. -/
def Live (o : Obs) : Prop := o.fresh = true ∨ ∃ t d, o.now = some t ∧ o.deadline = some d ∧ t < d

/-- A request that the observer accepts. -/
def RequestAllowed (c : BlockCipher) (asked : Bytes → Prop) (o : Obs) (url : Url) (body : Body) : Prop :=
  ∃ k t ciphertext message, o.key = some k ∧ o.token = some t ∧ url = .token t ∧ Live o ∧
    body = .passthrough ciphertext ∧ Crypto.decrypt c k.key k.iv ciphertext = some message ∧ asked message

/-- A login that the observer accepts: within a live session, with the user's or the default credentials. -/
def LoginAllowed (c : BlockCipher) (cfg : Config) (o : Obs) (body : Body) : Prop :=
  ∃ k ciphertext params, o.key = some k ∧ Live o ∧ body = .passthrough ciphertext ∧
    (params = cfg.loginParams ∨ params = cfg.defaultParams) ∧
    Crypto.decrypt c k.key k.iv ciphertext =
      some (cfg.dumps (.obj [("method", .str "login_device"), ("params", params)]))

/-- The observer accepts every request and every login in the history, except after a handshake that ended with an
unusable key. -/
def Accepted (c : BlockCipher) (cfg : Config) (asked : Bytes → Prop) (int : String → Option Int) (log : List Ev) :
    Prop :=
  ∀ before what url body cookies outcome after, log = before ++ .post what url body cookies outcome :: after →
    (observe c cfg int before).badKey = false →
    (what = .request → RequestAllowed c asked (observe c cfg int before) url body) ∧
    (what = .login → LoginAllowed c cfg (observe c cfg int before) body)

end Kasa.AesSpec
