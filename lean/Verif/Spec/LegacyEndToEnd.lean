import Verif.Spec.EndToEnd
import Verif.Spec.Xor
import Verif.Model.XorTransport
import Verif.Model.RetryLoop
/-!
# Specification: a legacy device reached over an unreliable network
-/

namespace Kasa.LegacyEndToEnd
open PyM EndToEnd

/-- What the device makes of the bytes of a message: after the length, each byte is combined with the one before, the first
with 171; the outcome is a JSON text. -/
def deviceReads (bytes : Bytes) : Option Json :=
  let c := bytes.drop 4
  (fromUtf8 (List.zipWith (· ^^^ ·) (171 :: c) c)).bind JsonText.loads

/-- What happens by itself: at each request, what the transport meets with (see `XorT.SendEnv`), and whether the device
carries the request out if a connection to it was there. -/
structure Chance where
  env : Nat → XorT.SendEnv
  handled : Nat → Bool

/-- Transport and device: the state of the device's program, what it had to say to each request so far (nothing if the request
was not carried out), and (ghost) the requests with their outcomes. -/
structure World (α : Type) where
  transport : XorT.St
  state : α
  answers : List Bytes
  log : List (Json × Except Exc Json)

/-- A device just found. -/
def fresh {α : Type} (a : α) : World α := ⟨⟨none⟩, a, [], []⟩

/-- The answer to the `i`-th request. -/
def World.answer {α : Type} (w : World α) (i : Nat) : Bytes := w.answers.getD i []

/-- The number of requests so far. -/
def World.count {α : Type} (w : World α) : Nat := w.answers.length

/-- UTF-8 decoding and `json_loads`. -/
def parse (b : Bytes) : Option Json := (fromUtf8 b).bind JsonText.loads

section
variable {α : Type} (lib lib' : JsonText.Lib) (p : Program α) (x : Chance)

/-- The request the device carries out, if it does. -/
def carried (request : Bytes) (w : World α) : Option Json :=
  match XorT.connect (x.env w.count) w.transport with
  | .error _ => none
  | .ok _ => if x.handled w.count then (Xor.encrypt request).bind deviceReads else none

/-- What a request leads to: the device's answer, the device's new state, and what the transport meets with.  When the device
does not carry the request out, nothing arrives in answer. -/
def reaction (request : Bytes) (w : World α) : Bytes × α × XorT.SendEnv :=
  match carried x request w with
  | some j => (utf8 (JsonText.dumps lib' (p.run j w.state).1), (p.run j w.state).2, x.env w.count)
  | none => ([], w.state, { x.env w.count with arrived := 0 })

/-- A request sent over the transport, and what the device does about it. -/
def send (j : Json) : PyM (World α) Json := fun w =>
  let request := utf8 (JsonText.dumps lib j)
  let r := reaction lib' p x request w
  let answers := w.answers ++ [r.1]
  let out := XorT.send parse (fun i => answers.getD i []) w.count request r.2.2 w.transport
  (out.1, ⟨out.2, r.2.1, answers, w.log ++ [(j, out.1)]⟩)

/-- `transport.reset()`. -/
def reset : PyM (World α) Unit := fun w => (.ok (), { w with transport := XorT.reset w.transport })

/-- `IotProtocol.query` over that transport (the request is dumped once, the lock is left out). -/
def query (j : Json) (retryCount : Int) : PyM (World α) Json :=
  Retry.iotQuery ⟨fun _ => send lib lib' p x j, reset, pure ()⟩ retryCount

/-- A query, or a close of the protocol. -/
inductive Op where
  | query (j : Json) (retryCount : Int)
  | close

/-- The world after a history. -/
def history : List Op → World α → World α
  | [], w => w
  | .close :: ops, w => history ops (reset w).2
  | .query j rc :: ops, w => history ops (query lib lib' p x j rc w).2

end

/-- The program's state after `n` times the request `j`. -/
def times {α : Type} (p : Program α) (j : Json) : Nat → α → α
  | 0, a => a
  | n + 1, a => (p.run j (times p j n a)).2

/-- Answers are proper JSON and short enough for a frame. -/
def Answers {α : Type} (lib : JsonText.Lib) (p : Program α) : Prop :=
  ∀ j a, JsonText.Proper (p.run j a).1 ∧ (utf8 (JsonText.dumps lib (p.run j a).1)).length < 2 ^ 32

end Kasa.LegacyEndToEnd
