import Verif.Spec.ReadBack
import Verif.Spec.ChildProtocol
/-!
# Specification: children reached through their device over an unreliable network
-/

namespace Kasa.ChildNetwork
open EndToEnd Smart SmartSpec ChildSpec

/-- `d` is the query `q` as it is handed to a child. -/
def Asks (q : Query) (d : Json) : Prop :=
  match q with
  | .name m => d.get? "method" = some (.str m) ∧ d.get? "params" = some .null
  | .dict [(m, p)] => d.get? "method" = some (.str m) ∧ d.get? "params" = some p
  | .dict requests => d.get? "method" = some (.str "multipleRequest") ∧
      ∃ params items, d.get? "params" = some params ∧ params.get? "requests" = some (.arr items) ∧
        items.map readRequest = requests.map fun kv => some (requestFor kv.1 kv.2)

/-- `body` is addressed to the child `id` and holds `d` for it. -/
def Addressed (body : Json) (id : String) (d : Json) : Prop :=
  body.get? "device_id" = some (.str id) ∧ body.get? "requestData" = some d

/-- A device with children, which have states of their own: what is addressed to a child it knows it hands to that child and to no other,
and gives back the child's answer; or, when the child cannot be reached, it answers with an error code and no child is any different. -/
def Hub {γ β : Type} (p : Program (γ × (String → β))) (uuid : String) (Known : String → Prop) (kid : String → Program β) : Prop :=
  ∀ id d body j a, Known id → Addressed body id d → Message uuid (.single ⟨"control_child", some body⟩) j →
    (∃ v, Carries (p.run j a).1 (0, some v) ∧ v.get? "responseData" = some ((kid id).run d (a.2 id)).1 ∧ v.get? "start_index" = none ∧
      (p.run j a).2.2 = fun i => if i = id then ((kid id).run d (a.2 id)).2 else a.2 i) ∨
    (∃ c x, c ≠ 0 ∧ Carries (p.run j a).1 (c, x) ∧ (p.run j a).2.2 = a.2)

/-- A result that cannot be taken for the answers to several methods. -/
def Plain (v : Json) : Prop := v.truthy = true → (∃ kvs, v = .obj kvs) ∧ v.get? "responses" = none

/-- The method `m` with params `q` puts the child into state `f b`, from whatever state `b`, and is answered with `v`; or it is refused
with an error code and the child stays as it is.  Asking twice is no different from asking once. -/
structure KidSets {β : Type} (k : Program β) (m : String) (q : Json) (f : β → β) (v : Json) : Prop where
  sets : ∀ d b, Asks (.dict [(m, q)]) d →
    (Carries (k.run d b).1 (0, some v) ∧ (k.run d b).2 = f b) ∨
    ∃ c x, c ≠ 0 ∧ Carries (k.run d b).1 (c, x) ∧ (∀ u, x = some u → Plain u) ∧ (k.run d b).2 = b
  idem : ∀ b, f (f b) = f b
  plain : Plain v

/-- The requests `Rs` read: the child answers them as `ans` says of its state, which stays as it is; of several of them at once, it answers
some, at least one, in any order. -/
structure KidReads {β : Type} (k : Program β) (Rs : Request → Prop) (ans : β → Request → Answer) : Prop where
  single : ∀ m q, Rs (requestFor m q) → ∀ d b, Asks (.dict [(m, q)]) d → Carries (k.run d b).1 (ans b (requestFor m q)) ∧ (k.run d b).2 = b
  multi : ∀ requests, 2 ≤ requests.length → (∀ m q, (m, q) ∈ requests → Rs (requestFor m q)) → ∀ d b, Asks (.dict requests) d →
    (k.run d b).2 = b ∧ ∃ res items, (k.run d b).1.get? "result" = some res ∧ res.get? "responses" = some (.arr items) ∧ items ≠ [] ∧
      AnswersSome (ans b) requests items
  plain : ∀ r, Rs r → ∀ b v, (ans b r).2 = some v → Plain v

/-- The child leaves no method of several unanswered. -/
def Thorough {β : Type} (k : Program β) : Prop :=
  ∀ requests d b res items, Asks (.dict requests) d → (k.run d b).1.get? "result" = some res → res.get? "responses" = some (.arr items) →
    AnswersEvery requests items

/-- A query to the device (`none`) or to one of its children, and its retry count. -/
structure Call where
  child : Option String
  query : Query
  retries : Int

section
variable {σ γ β : Type} (t : Smart.Transport σ) (p : Program (γ × (String → β))) (uuid : String) (Known : String → Prop)
variable (kid : String → Program β) (state : σ → γ × (String → β)) (s0 : Smart.St σ)

/-- Calls one after the other. -/
def calls (cs : List Call) (s : Smart.St σ) : Smart.St σ := cs.foldl (fun s c => (Child.ask t c.child c.query c.retries s).2) s

/-- The state of the child `id`. -/
def stateOf (s : Smart.St σ) (id : String) : β := (state s.world).2 id

/-- A call that has no business with the child `id`: a query to another child, whatever it does there; or a query that only reads. -/
inductive Apart (id : String) : Call → Prop where
  | other {id' q rc} : id' ≠ id → Known id' → ProperQuery q → Apart id ⟨some id', q, rc⟩
  | child {requests rc Rs ans} : KidReads (kid id) Rs ans → requests ≠ [] → ReadQuery Rs requests → Apart id ⟨some id, .dict requests, rc⟩
  | device {requests rc Rs ans} : Reads p uuid Rs ans → ReadQuery Rs requests → Apart id ⟨none, .dict requests, rc⟩

/-- After any calls: a query to one child, whatever it is and whatever becomes of it, leaves every other child as it is. -/
def OthersStay : Prop :=
  ∀ (before : List Call), (∀ c ∈ before, ProperQuery c.query) → ∀ id, Known id → ∀ (q : Query), ProperQuery q → ∀ (rc : Int),
  let s := calls t before s0
  ∀ id', id' ≠ id → stateOf state (Child.ask t (some id) q rc s).2 id' = stateOf state s id'

/-- After any calls: once a query that sets something at a child has returned, and after any calls that have no business with it, a query
that reads from the child and returns shows the child as it was set, with all methods if the child answers them all.  If the query that sets
raised instead, what is read is the child as it was set or as it was before. -/
def ChildReadsBack : Prop :=
  ∀ (before : List Call), (∀ c ∈ before, ProperQuery c.query) → ∀ id, Known id →
  ∀ (m : String) (q : Json), JsonText.Proper q → ∀ (f : β → β) (v : Json), KidSets (kid id) m q f v →
  ∀ (between : List Call), (∀ c ∈ between, Apart p uuid Known kid id c) →
  ∀ (Rs : Request → Prop) (ans : β → Request → Answer), KidReads (kid id) Rs ans →
  ∀ (requests : Dict String Json), requests ≠ [] → ReadQuery Rs requests → ∀ (rc rc' : Int),
  let s := calls t before s0
  let set := Child.ask t (some id) (.dict [(m, q)]) rc s
  let got := Child.ask t (some id) (.dict requests) rc' (calls t between set.2)
  ∀ r, got.1 = .ok r → (Thorough (kid id) → ∀ m ∈ requests.keys, m ∈ r.keys) ∧
    (∀ v', set.1 = .ok v' → v' = [(m, .value v)] ∧ Shows (ans (f (stateOf state s id))) requests r) ∧
    ∀ e, set.1 = .error e → Shows (ans (stateOf state s id)) requests r ∨ Shows (ans (f (stateOf state s id))) requests r

/-- The update of the child `id`, whose first query has the number `n`, is not cancelled. -/
def ChildUninterrupted (env : SmartDevice.Env) (id : String) (n : Nat) (req : SmartDevice.Request) : Prop :=
  ∀ e, env.answer n (some id) req = .error e → e.isException = true ∧
    ∀ (i : Nat) kv, req[i]? = some kv → ∀ e, env.answer (n + 1 + i) (some id) [kv] = .error e → e.isException = true

/-- The queries of the object of the child `id` go through the protocol object of the device, which is in the state `at' n` when the `n`-th
query is made; `asked` are the queries that have been made. -/
structure ChildBehind (env : SmartDevice.Env) (id : String) (rc : Int) (at' : Nat → Smart.St σ)
    (asked : List (Option String × SmartDevice.Request)) : Prop where
  answer : ∀ n req, env.answer n (some id) req = (Child.ask t (some id) (.dict req) rc (at' n)).1
  next : ∀ n req, asked[n]? = some (some id, req) → at' (n + 1) = (Child.ask t (some id) (.dict req) rc (at' n)).2

/-- After any calls, one that set something at a child and returned, and any calls that have no business with the child, the object of
the child is updated, where everything it asks for is read: then whatever fails, all it holds are answers, to what it asked for, that the child
gives in the state it was set to, and markers for queries that failed; and if the child answers all that it is asked, it holds something for
each method. -/
def ChildUpdateShows : Prop :=
  ∀ (before : List Call), (∀ c ∈ before, ProperQuery c.query) → ∀ id, Known id →
  ∀ (m : String) (q : Json), JsonText.Proper q → ∀ (f : β → β) (v : Json), KidSets (kid id) m q f v →
  ∀ (between : List Call), (∀ c ∈ between, Apart p uuid Known kid id c) →
  ∀ (Rs : Request → Prop) (ans : β → Request → Answer), KidReads (kid id) Rs ans → ∀ (rc rc' : Int),
  let s := calls t before s0
  let set := Child.ask t (some id) (.dict [(m, q)]) rc s
  ∀ v', set.1 = .ok v' →
  ∀ (env : SmartDevice.Env) (at' : Nat → Smart.St σ) (l : SmartDevice.Local), l.dev.id = some id →
  let req := SmartDevice.requestOf false (env.clock l.net.ticks) l.dev
  req ≠ [] → ReadQuery Rs req → ChildUninterrupted env id l.net.asked.length req →
  let after := (SmartDevice.childUpdate env l).2
  ChildBehind t env id rc' at' after.net.asked → at' l.net.asked.length = calls t between set.2 →
  (∀ k e, Dict.get? after.dev.last k = some e →
    (∃ q, (k, q) ∈ req ∧ e = entryFor (ans (f (stateOf state s id)) (requestFor k q))) ∨ e = .error (-100001)) ∧
  (Thorough (kid id) → ∀ k ∈ Dict.keys req, (Dict.get? after.dev.last k).isSome)

end
end Kasa.ChildNetwork
