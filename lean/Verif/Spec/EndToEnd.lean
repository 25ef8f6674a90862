import Verif.Spec.Klap
import Verif.Spec.SmartProtocol
import Verif.Model.JsonText
import Verif.Model.SmartText
import Verif.Lemmas.JsonText
/-!
# Specification: a device program reached over an unreliable network
-/

namespace Kasa.EndToEnd
open KlapSpec Klap

/-- What a device does with a request, apart from how requests get there: the answer and the state afterwards. -/
structure Program (α : Type) where
  run : Json → α → Json × α

/-- The outcomes of requests sent one after the other are explained by a device that goes from state `a` to `a'`: a
request with an answer was carried out exactly once and got the device's own answer; a request that failed was carried
out once or not at all; nothing was carried out out of order or without being asked for. -/
inductive Once {α : Type} (p : Program α) : α → List (Json × Except Exc Json) → α → Prop where
  | nil (a) : Once p a [] a
  | answered {a a' j l} : Once p (p.run j a).2 l a' → Once p a ((j, .ok (p.run j a).1) :: l) a'
  | unanswered {a a' j e l} : Once p (p.run j a).2 l a' → Once p a ((j, .error e) :: l) a'
  | failed {a a' j e l} : Once p a l a' → Once p a ((j, .error e) :: l) a'

/-! ## A KLAP device -/

/-- What becomes of an HTTP exchange: it works, the request does not reach the device, or the answer does not reach the
client.  In the latter cases the client gets an exception or another answer. -/
inductive Fate where
  | fine
  | lost (instead : Except Exc (Int × Bytes))
  | unanswered (instead : Except Exc (Int × Bytes))

/-- Only the device gives an answer with status 200. -/
def Fate.Fair : Fate → Prop
  | .fine => True
  | .lost x => ∀ b, x ≠ .ok (200, b)
  | .unanswered x => ∀ b, x ≠ .ok (200, b)

/-- Everything that happens by itself: what becomes of the exchanges, before which of them the device loses its session
(by a restart), the random seeds of both sides, clock and cookies. -/
structure Chance where
  fate : Nat → Fate
  restart : Nat → Bool
  remoteSeed : Nat → Bytes
  localSeed : Nat → Bytes
  clock : Nat → Int
  cookie : Nat → String → Option String
  int : String → Option Int

structure Chance.Fair (x : Chance) : Prop where
  fate : ∀ n, (x.fate n).Fair
  seed : ∀ n, (x.remoteSeed n).length = 16

/-- The device: the seeds of a handshake that has begun, the keys of the session, the last sequence number, the state of its
program; and the number of things that have happened by chance so far. -/
structure World (α : Type) where
  seeds : Option (Bytes × Bytes)
  session : Option Keys
  last : Int
  state : α
  count : Nat

section
variable {α : Type} (c : BlockCipher) (h : Hashes) (d : Device) (stored : Bytes) (lib : JsonText.Lib) (p : Program α)
variable (x : Chance)

/-- How the device signs and encrypts an answer. -/
def sealed (k : Keys) (n : Int) (answer : Bytes) : Option Bytes :=
  (Crypto.packI32 n).bind fun packed =>
    deviceAnswers c k n (h.sha256 (k.sig ++ packed ++ Crypto.encrypt c k.key (k.iv ++ packed) answer)) answer

/-- What the device does with a request that reaches it. -/
def handle (url : Url) (payload : Bytes) (w : World α) : (Int × Bytes) × World α :=
  match url with
  | .handshake1 =>
    let r := x.remoteSeed w.count
    ((200, r ++ d.proof payload r stored), { w with seeds := some (payload, r), session := none })
  | .handshake2 =>
    match w.seeds with
    | some (l, r) =>
      if payload = d.expects l r stored then
        ((200, []), { w with seeds := none, session := some (keys h l r stored), last := (keys h l r stored).start })
      else ((403, []), { w with seeds := none })
    | none => ((403, []), w)
  | .request n =>
    match w.session with
    | none => ((403, []), w)
    | some k =>
      if n ≤ w.last then ((403, []), w)
      else
        match (deviceReads c h k n payload).bind fun m => (fromUtf8 m).bind JsonText.loads with
        | none => ((400, []), w)
        | some j =>
          match sealed c h k n (utf8 (JsonText.dumps lib (p.run j w.state).1)) with
          | none => ((400, []), w)
          | some body => ((200, body), { w with last := n, state := (p.run j w.state).2 })

/-- An exchange over the network. -/
def exchange (url : Url) (payload : Bytes) (w : World α) : Except Exc (Int × Bytes) × World α :=
  let w : World α := if x.restart w.count then { w with session := none, seeds := none } else w
  match x.fate w.count with
  | .fine =>
    let r := handle c h d stored lib p x url payload w
    (.ok r.1, { r.2 with count := w.count + 1 })
  | .lost instead => (instead, { w with count := w.count + 1 })
  | .unanswered instead =>
    let r := handle c h d stored lib p x url payload w
    (instead, { r.2 with count := w.count + 1 })

/-- The environment of a transport that talks to such a device. -/
def network : Env (World α) where
  post url payload _ w := exchange c h d stored lib p x url payload w
  cookie name w := x.cookie w.count name
  now w := (x.clock w.count, { w with count := w.count + 1 })
  token w := (x.localSeed w.count, { w with count := w.count + 1 })
  int := x.int

end

/-- The transport is of the device's kind and has the credentials of its owner. -/
structure Matches (cfg : Config) (d : Device) (stored : Bytes) : Prop where
  hash : cfg.localHash = stored
  proof : ∀ l r a, cfg.variant.handshake1 l r a = d.proof l r a
  expects : ∀ l r a, cfg.variant.handshake2 l r a = d.expects l r a
  length : ∀ l r a, (d.proof l r a).length = 32

/-- A request, or a reset of the transport. -/
inductive Op where
  | send (j : Json)
  | reset

/-- A history on one transport object: the requests with their outcomes, and the state in the end. -/
def history {α : Type} (c : BlockCipher) (h : Hashes) (env : Env (World α)) (cfg : Config) (lib : JsonText.Lib) :
    List Op → St (World α) → List (Json × Except Exc Json) × St (World α)
  | [], s => ([], s)
  | .reset :: ops, s => history c h env cfg lib ops (reset s).2
  | .send j :: ops, s =>
    let r := Klap.send c h env cfg fromUtf8 JsonText.loads (utf8 (JsonText.dumps lib j)) s
    let rest := history c h env cfg lib ops r.2
    ((j, r.1) :: rest.1, rest.2)

/-! ## SMART queries over such a network -/

/-- The KLAP transport as the SMART protocol uses it; `time` is the clock the requests are stamped with. -/
def klapTransport {α : Type} (c : BlockCipher) (h : Hashes) (env : Env (World α)) (cfg : Config) (lib : JsonText.Lib) (uuid : String)
    (time : Nat → Int) : Smart.Transport (St (World α)) where
  send w s := Klap.send c h env cfg fromUtf8 JsonText.loads (SmartText.wireBytes lib uuid (time s.world.count) w) s
  reset s := reset s

/-- `j` is a request for the given method with the given params from the client `uuid`, stamped with some time. -/
def IsRequest (uuid : String) (j : Json) (method : String) (params : Option Json) : Prop :=
  j.get? "method" = some (.str method) ∧ j.get? "params" = params ∧ j.get? "terminal_uuid" = some (.str uuid) ∧
    ∃ t, j.get? "request_time_milis" = some (.num t)

/-- A request as it is listed in a batch. -/
def listed (r : Smart.Request) : Json :=
  match r.params with
  | some q => .obj [("method", .str r.method), ("params", q)]
  | none => .obj [("method", .str r.method)]

/-- `j` is the message `w`: a request, or a batch of them in order. -/
def Message (uuid : String) (w : Smart.Wire) (j : Json) : Prop :=
  match w with
  | .single r => IsRequest uuid j r.method r.params
  | .multi rs => IsRequest uuid j "multipleRequest" (some (.obj [("requests", .arr (rs.map listed))]))
  | .raw body => j = body

/-- `js` are the messages `ws`. -/
inductive Sent (uuid : String) : List Smart.Wire → List Json → Prop where
  | nil : Sent uuid [] []
  | cons {w ws j js} : Message uuid w j → Sent uuid ws js → Sent uuid (w :: ws) (j :: js)

/-- A new protocol object with a new transport. -/
def fresh {α : Type} (batchSize : Nat) (w : World α) : Smart.St (St (World α)) := ⟨batchSize, { world := w }, []⟩

/-- Queries, with their retry counts, one after the other. -/
def queries {σ : Type} (t : Smart.Transport σ) (qs : List (Smart.Query × Int)) (s : Smart.St σ) : Smart.St σ :=
  qs.foldl (fun s q => (Smart.query t q.1 q.2 s).2) s

/-- All params in a query are proper JSON. -/
def ProperQuery : Smart.Query → Prop
  | .name _ => True
  | .dict requests => ∀ m p, (m, p) ∈ requests → JsonText.Proper p

/-- The program answers each request as `ans` says, and batches with some of these answers, in any order. -/
structure Speaks {α : Type} (p : Program α) (uuid : String) (ans : Smart.Request → SmartSpec.Answer) : Prop where
  single : ∀ r j a, Message uuid (.single r) j → SmartSpec.Carries (p.run j a).1 (ans r)
  multi : ∀ rs j a, Message uuid (.multi rs) j → ∃ items, (p.run j a).1.get? "error_code" = some (.num 0) ∧
    (∃ res, (p.run j a).1.get? "result" = some res ∧ res.get? "responses" = some (.arr items)) ∧
    ∀ item ∈ items, ∃ r ∈ rs, item.get? "method" = some (.str r.method) ∧ SmartSpec.Carries item (ans r)

/-- The request `r` puts the program into state `f a`, from whatever state `a`, and asking twice is no different from asking
once; it is answered with success and `v`, which is no list in pages. -/
structure Sets {α : Type} (p : Program α) (uuid : String) (r : Smart.Request) (f : α → α) (v : Json) : Prop where
  state : ∀ j a, Message uuid (.single r) j → (p.run j a).2 = f a
  idem : ∀ a, f (f a) = f a
  answer : ∀ j a, Message uuid (.single r) j → SmartSpec.Carries (p.run j a).1 (0, some v)
  unpaged : v.get? "start_index" = none

/-- From the `m`-th event on nothing goes wrong: every exchange works and the device is not restarted; the cookies are numbers; and no
session starts so high that it would not last for `n` requests. -/
structure Chance.CalmFrom (x : Chance) (h : Hashes) (stored : Bytes) (m n : Nat) : Prop where
  fate : ∀ k, m ≤ k → x.fate k = .fine
  restart : ∀ k, m ≤ k → x.restart k = false
  seed : ∀ k, m ≤ k → (x.remoteSeed k).length = 16
  lifetime : ∀ k, m ≤ k → ∀ v, x.cookie k "TIMEOUT" = some v → v = "" ∨ (x.int v).isSome
  start : ∀ k l, m ≤ k → m ≤ l → (keys h (x.localSeed k) (x.remoteSeed l) stored).start + n < 2 ^ 31

end Kasa.EndToEnd
