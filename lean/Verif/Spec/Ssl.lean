import Verif.Model.Ssl
import Verif.Spec.ErrorCodes
/-!
# Specification of the HTTPS transport's traffic, as an observer of the network and the clock sees it
-/

namespace Kasa.SslSpec
open Ssl

/-- The device reports success. -/
def successful (resp : Json) : Bool :=
  resp.get? "error_code" == some (.num 0) || resp.get? "error_code" == some (.bool false)

/-- The device reports an authentication error: the session is not valid any more. -/
def refused (resp : Json) : Bool :=
  match resp.get? "error_code" with
  | some (.num n) => decide (CodesSpec.Authentication n)
  | _ => false

/-- The device says that the credentials are wrong. -/
def wrongCredentials (resp : Json) : Bool := resp.get? "error_code" == some (.num (-1501))

/-- The token in the answer to a login. -/
def tokenOf (resp : Json) : Option Json := (resp.get? "result").bind fun r => r.get? "token"

/-- What the observer remembers. -/
structure Obs where
  /-- the token of the last login, unless the session was reset or refused since -/
  token : Option Json := none
  /-- the next clock reading is the time of the login -/
  justIn : Bool := false
  /-- when the session must not be used any more: a day less 20 minutes after the login -/
  deadline : Option Int := none
  /-- the login was made during the current call -/
  fresh : Bool := false
  /-- the last clock reading of the current call -/
  now : Option Int := none
  /-- during the current call the device said that the user's credentials are wrong -/
  wrong : Bool := false

/-- The session is not valid any more. -/
def Obs.down (o : Obs) : Obs := { o with token := none }

/-- What the answer to a login with some parameters tells. -/
def seeLogin (cfg : Config) (o : Obs) (params : Json) (resp : Json) : Obs :=
  if refused resp then { o.down with wrong := o.wrong || (wrongCredentials resp && decide (params = cfg.loginParams)) }
  else if successful resp then
    match tokenOf resp with
    | some t => { o with token := some t, justIn := true }
    | none => o
  else o

/-- How an event changes what the observer remembers. -/
def see (cfg : Config) (o : Obs) : Ev → Obs
  | .call => { o with fresh := false, now := none, wrong := false }
  | .post _ (.login params) outcome =>
    match outcome with
    | .ok (200, resp) => seeLogin cfg o params resp
    | _ => o
  | .post _ (.request _) outcome =>
    match outcome with
    | .ok (200, resp) => if refused resp then o.down else o
    | _ => o
  | .clock t =>
    if o.justIn then { o with justIn := false, deadline := some (t + 86400 - 1200), fresh := true }
    else { o with now := some t }
  | .reset => o.down

/-- What the observer remembers after a history. -/
def observe (cfg : Config) (log : List Ev) : Obs := log.foldl (see cfg) {}

/-- The login was made in this call, or the session was found not to have run out in this call. -/
def Live (o : Obs) : Prop := o.fresh = true ∨ ∃ t d, o.now = some t ∧ o.deadline = some d ∧ t < d

/-- A request that the observer accepts: one the caller asked for, in a live session, under the session's token. -/
def RequestAllowed (asked : Bytes → Prop) (o : Obs) (url : Url) (text : Bytes) : Prop :=
  asked text ∧ ∃ t, o.token = some t ∧ url = .token t ∧ Live o

/-- A login that the observer accepts: with the user's credentials when there is no live session; with the default ones
after the device has said, in this call, that the user's are wrong. -/
def LoginAllowed (cfg : Config) (o : Obs) (params : Json) : Prop :=
  (params = cfg.loginParams ∧ (o.token = none ∨ ∃ t d, o.now = some t ∧ o.deadline = some d ∧ d ≤ t)) ∨
  (params = cfg.defaultParams ∧ o.wrong = true ∧ o.token = none)

/-- The observer accepts every request and every login in the history. -/
def Accepted (cfg : Config) (asked : Bytes → Prop) (log : List Ev) : Prop :=
  ∀ before url body outcome after, log = before ++ .post url body outcome :: after →
    match body with
    | .request text => RequestAllowed asked (observe cfg before) url text
    | .login params => LoginAllowed cfg (observe cfg before) params

end Kasa.SslSpec
