import Verif.Spec.EndToEnd
import Verif.Spec.Ssl
/-!
# Specification: a device program reached with the HTTPS transport over an unreliable network
-/

namespace Kasa.SslEndToEnd
open EndToEnd Ssl

/-- What becomes of an HTTP exchange: it works, the request does not reach the device, or the answer does not reach the
client.  In the latter cases the client gets an exception or another answer. -/
inductive Fate where
  | fine
  | lost (instead : Except HttpError (Int × Json))
  | unanswered (instead : Except HttpError (Int × Json))

/-- Only the device reports success. -/
def Fate.Fair : Fate → Prop
  | .fine => True
  | .lost x => ∀ b, x = .ok (200, b) → SslSpec.successful b = false
  | .unanswered x => ∀ b, x = .ok (200, b) → SslSpec.successful b = false

/-- Everything that happens by itself: what becomes of the exchanges, before which of them the device forgets its session
(by a restart, or because it has run out), the tokens it hands out, how it refuses requests and logins, and the clock. -/
structure Chance where
  fate : Nat → Fate
  restart : Nat → Bool
  token : Nat → Json
  refusal : Nat → Int × Json
  denial : Nat → Int × Json
  clock : Nat → Int

/-- The network does not make up successes, and the device does not report success when it refuses a request. -/
structure Chance.Fair (x : Chance) : Prop where
  fate : ∀ n, (x.fate n).Fair
  refusal : ∀ n, (x.refusal n).1 = 200 → SslSpec.successful (x.refusal n).2 = false

/-- The device: the token of the login, the state of its program; and the number of things that have happened by chance so
far. -/
structure World (α : Type) where
  token : Option Json
  state : α
  count : Nat

section
variable {α : Type} (owner : Json) (lib : JsonText.Lib) (p : Program α) (x : Chance)

/-- An answer of the device, as the client reads it. -/
def delivered (v : Json) : Int × Json := (200, (JsonText.loads (JsonText.dumps lib v)).getD .null)

/-- What the device does with a request that reaches it. -/
def handle (url : Url) (body : Body) (w : World α) : (Int × Json) × World α :=
  match body with
  | .login params =>
    if params = owner then
      (delivered lib (.obj [("error_code", .num 0), ("result", .obj [("token", x.token w.count)])]),
        { w with token := some (x.token w.count) })
    else (x.denial w.count, w)
  | .request text =>
    match url, (fromUtf8 text).bind JsonText.loads with
    | .token t, some j =>
      if w.token = some t then (delivered lib (p.run j w.state).1, { w with state := (p.run j w.state).2 })
      else (x.refusal w.count, w)
    | _, _ => (x.refusal w.count, w)

/-- An exchange over the network. -/
def exchange (url : Url) (body : Body) (w : World α) : Except HttpError (Int × Json) × World α :=
  let w : World α := if x.restart w.count then { w with token := none } else w
  match x.fate w.count with
  | .fine =>
    let r := handle owner lib p x url body w
    (.ok r.1, { r.2 with count := w.count + 1 })
  | .lost instead => (instead, { w with count := w.count + 1 })
  | .unanswered instead =>
    let r := handle owner lib p x url body w
    (instead, { r.2 with count := w.count + 1 })

/-- The environment of a transport that talks to such a device. -/
def network : Env (World α) where
  post url body w := exchange owner lib p x url body w
  now w := (x.clock w.count, { w with count := w.count + 1 })

end

/-- A request, or a reset of the transport. -/
inductive Op where
  | send (j : Json)
  | reset

/-- A history on one transport object: the requests with their outcomes, and the state in the end. -/
def history {α : Type} (env : Env (World α)) (cfg : Config) (lib : JsonText.Lib) :
    List Op → St (World α) → List (Json × Except Exc Json) × St (World α)
  | [], s => ([], s)
  | .reset :: ops, s => history env cfg lib ops (reset s).2
  | .send j :: ops, s =>
    let r := Ssl.send env cfg (utf8 (JsonText.dumps lib j)) s
    let rest := history env cfg lib ops r.2
    ((j, r.1) :: rest.1, rest.2)

/-- The HTTPS transport as the SMART protocol uses it; `time` is the clock the requests are stamped with. -/
def sslTransport {α : Type} (env : Env (World α)) (cfg : Config) (lib : JsonText.Lib) (uuid : String) (time : Nat → Int) :
    Smart.Transport (St (World α)) where
  send w s := Ssl.send env cfg (utf8 (JsonText.dumps lib (SmartText.wireJson uuid (time s.world.count) w))) s
  reset s := reset s

/-- A new protocol object with a new transport. -/
def fresh {α : Type} (batchSize : Nat) (w : World α) : Smart.St (St (World α)) := ⟨batchSize, { world := w }, []⟩

/-- From some point on nothing goes wrong: every exchange works and the device keeps its session.  A request under a token
which is not valid any more is refused with an authentication error. -/
structure Chance.CalmFrom (x : Chance) (n : Nat) : Prop where
  fate : ∀ k, n ≤ k → x.fate k = .fine
  restart : ∀ k, n ≤ k → x.restart k = false
  token : ∀ k, n ≤ k → JsonText.Proper (x.token k)
  refusal : ∀ k, n ≤ k → (x.refusal k).1 = 200 ∧ SslSpec.refused (x.refusal k).2 = true

/-- The device knows the user's credentials; or it knows the default ones, and tells the user that theirs are wrong. -/
def Chance.Recognises (x : Chance) (owner : Json) (cfg : Config) : Prop :=
  cfg.loginParams ≠ owner → cfg.defaultParams = owner ∧
    ∀ n, (x.denial n).1 = 200 ∧ SslSpec.wrongCredentials (x.denial n).2 = true

/-- The device reports success on everything that is asked. -/
def Successful {α : Type} (p : Program α) : Prop := ∀ j a, SslSpec.successful (p.run j a).1 = true

end Kasa.SslEndToEnd
