import Verif.Spec.EndToEnd
import Verif.Spec.Aes
/-!
# Specification: a device program reached with the AES transport over an unreliable network
-/

namespace Kasa.AesEndToEnd
open EndToEnd Aes

/-- What becomes of an HTTP exchange: it works, the request does not reach the device, or the answer does not reach the
client.  In the latter cases the client gets an exception or another answer. -/
inductive Fate where
  | fine
  | lost (instead : Except Exc (Int × Json))
  | unanswered (instead : Except Exc (Int × Json))

/-- Only the device gives an answer with status 200. -/
def Fate.Fair : Fate → Prop
  | .fine => True
  | .lost x => ∀ b, x ≠ .ok (200, b)
  | .unanswered x => ∀ b, x ≠ .ok (200, b)

/-- Everything that happens by itself: what becomes of the exchanges, before which of them the device loses its session (by a
restart), the keys and tokens it hands out, how it refuses requests and logins, clock and cookies; and RSA encryption with the
client's key pair. -/
structure Chance where
  fate : Nat → Fate
  restart : Nat → Bool
  key : Nat → Session
  token : Nat → Json
  refusal : Nat → Int × Json
  denial : Nat → Json
  clock : Nat → Int
  cookie : Nat → String → Option String
  int : String → Option Int
  lock : Bytes → Json
  unlock : Json → Option Bytes

structure Chance.Fair (x : Chance) : Prop where
  fate : ∀ n, (x.fate n).Fair
  key : ∀ n, (x.key n).key.length = 16 ∧ (x.key n).iv.length = 16
  refusal : ∀ n, (x.refusal n).1 = 200 → AesSpec.successful (x.refusal n).2 = false
  unlock : ∀ b, b.length = 32 → x.unlock (x.lock b) = some b

/-- The device: the key of the session, the token of the login, the state of its program; and the number of things that have
happened by chance so far. -/
structure World (α : Type) where
  session : Option Session
  token : Option Json
  state : α
  count : Nat

/-- `base64.b64decode` of a string. -/
def unb64 (text : String) : Option Bytes := if text.toList.all (fun c => c.toNat < 128) then B64.decode text.toList else none

/-- The transport with the encodings the code uses. -/
def config (lib : JsonText.Lib) (loginParams defaultParams : Json) : Config where
  loginParams := loginParams
  defaultParams := defaultParams
  dumps j := utf8 (JsonText.dumps lib j)
  unb64 := unb64
  decode := fromUtf8
  loads := JsonText.loads

section
variable {α : Type} (c : BlockCipher) (owner : Json) (lib : JsonText.Lib) (p : Program α) (x : Chance)

/-- How the device answers within a session. -/
def sealed (ses : Session) (v : Json) : Int × Json :=
  (200, .obj [("error_code", .num 0), ("result", .obj [("response",
    .str (String.ofList (B64.encode (Crypto.encrypt c ses.key ses.iv (utf8 (JsonText.dumps lib v))))))])])

/-- What the device does with a request that reaches it. -/
def handle (url : Url) (body : Body) (w : World α) : (Int × Json) × World α :=
  match body with
  | .handshake =>
    ((200, .obj [("error_code", .num 0), ("result", .obj [("key", x.lock ((x.key w.count).key ++ (x.key w.count).iv))])]),
      { w with session := some (x.key w.count), token := none })
  | .passthrough ciphertext =>
    match w.session with
    | none => (x.refusal w.count, w)
    | some ses =>
      match ((Crypto.decrypt c ses.key ses.iv ciphertext).bind fromUtf8).bind JsonText.loads with
      | none => (x.refusal w.count, w)
      | some j =>
        match url with
        | .app =>
          if j.get? "method" = some (.str "login_device") ∧ j.get? "params" = some owner then
            (sealed c lib ses (.obj [("error_code", .num 0), ("result", .obj [("token", x.token w.count)])]), { w with token := some (x.token w.count) })
          else (sealed c lib ses (x.denial w.count), w)
        | .token t =>
          if w.token = some t then (sealed c lib ses (p.run j w.state).1, { w with state := (p.run j w.state).2 })
          else (x.refusal w.count, w)

/-- The device after losing its session. -/
def World.restarted (w : World α) : World α := { w with session := none, token := none }

/-- An exchange over the network. -/
def exchange (url : Url) (body : Body) (w : World α) : Except Exc (Int × Json) × World α :=
  let w : World α := if x.restart w.count then w.restarted else w
  match x.fate w.count with
  | .fine =>
    let r := handle c owner lib p x url body w
    (.ok r.1, { r.2 with count := w.count + 1 })
  | .lost instead => (instead, { w with count := w.count + 1 })
  | .unanswered instead =>
    let r := handle c owner lib p x url body w
    (instead, { r.2 with count := w.count + 1 })

/-- The environment of a transport that talks to such a device. -/
def network : Env (World α) where
  post url body _ w := exchange c owner lib p x url body w
  cookie name w := x.cookie w.count name
  now w := (x.clock w.count, { w with count := w.count + 1 })
  openKey key _ := x.unlock key
  int := x.int

end

/-- A request, or a reset of the transport. -/
inductive Op where
  | send (j : Json)
  | reset

/-- A history on one transport object: the requests with their outcomes, and the state in the end. -/
def history {α : Type} (c : BlockCipher) (env : Env (World α)) (cfg : Config) : List Op → St (World α) → List (Json × Except Exc Json) × St (World α)
  | [], s => ([], s)
  | .reset :: ops, s => history c env cfg ops (reset s).2
  | .send j :: ops, s =>
    let r := Aes.send c env cfg (cfg.dumps j) s
    let rest := history c env cfg ops r.2
    ((j, r.1) :: rest.1, rest.2)

/-- The AES transport as the SMART protocol uses it; `time` is the clock the requests are stamped with. -/
def aesTransport {α : Type} (c : BlockCipher) (env : Env (World α)) (cfg : Config) (uuid : String) (time : Nat → Int) :
    Smart.Transport (St (World α)) where
  send w s := Aes.send c env cfg (cfg.dumps (SmartText.wireJson uuid (time s.world.count) w)) s
  reset s := reset s

/-- A new protocol object with a new transport. -/
def fresh {α : Type} (batchSize : Nat) (w : World α) : Smart.St (St (World α)) := ⟨batchSize, { world := w }, []⟩

/-- From the `m`-th event on nothing goes wrong: every exchange works and the device is not restarted, the cookies are numbers, keys can be
read and the tokens written. -/
structure Chance.CalmFrom (x : Chance) (m : Nat) : Prop where
  fate : ∀ k, m ≤ k → x.fate k = .fine
  restart : ∀ k, m ≤ k → x.restart k = false
  key : ∀ n, m ≤ n → (x.key n).key.length = 16 ∧ (x.key n).iv.length = 16
  token : ∀ n, m ≤ n → JsonText.Proper (x.token n)
  lifetime : ∀ k, m ≤ k → ∀ v, x.cookie k "TIMEOUT" = some v → v = "" ∨ (x.int v).isSome
  unlock : ∀ b, b.length = 32 → x.unlock (x.lock b) = some b

/-- A request that does not belong to a session is refused with a status, or with an error code other than that for wrong credentials. -/
def Chance.Refuses (x : Chance) : Prop :=
  ∀ n, (x.refusal n).1 ≠ 200 ∨ ∃ kvs k, (x.refusal n).2 = .obj kvs ∧ Dict.get? kvs "error_code" = some (.num k) ∧ k ≠ 0 ∧ k ≠ -1501

/-- The device knows the user's credentials; or it knows the default ones, and tells the user that theirs are wrong. -/
structure Chance.Recognises (x : Chance) (owner user default : Json) : Prop where
  proper : JsonText.Proper owner
  or : user ≠ owner → default = owner ∧ JsonText.Proper user ∧
    ∀ n, JsonText.Proper (x.denial n) ∧ (x.denial n).get? "error_code" = some (.num (-1501))

end Kasa.AesEndToEnd
