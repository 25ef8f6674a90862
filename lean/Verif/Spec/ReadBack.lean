import Verif.Spec.EndToEnd
import Verif.Model.SmartProtocol
import Verif.Model.SmartDevice
/-!
# Specification: what was set is what is read
-/

namespace Kasa.EndToEnd
open Smart (Request Entry)
open SmartSpec (Answer Carries entryFor requestFor)

/-- The requests `Rs` read: the program answers them as `ans` says of its state, which stays as it is; a batch of them is answered
with some of these answers, in any order.  None of the answers is a list in pages. -/
structure Reads {α : Type} (p : Program α) (uuid : String) (Rs : Request → Prop) (ans : α → Request → Answer) : Prop where
  single : ∀ r, Rs r → ∀ j a, Message uuid (.single r) j → Carries (p.run j a).1 (ans a r) ∧ (p.run j a).2 = a
  multi : ∀ rs, (∀ r ∈ rs, Rs r) → ∀ j a, Message uuid (.multi rs) j → (p.run j a).2 = a ∧
    ∃ items, (p.run j a).1.get? "error_code" = some (.num 0) ∧
      (∃ res, (p.run j a).1.get? "result" = some res ∧ res.get? "responses" = some (.arr items)) ∧
      ∀ item ∈ items, ∃ r ∈ rs, item.get? "method" = some (.str r.method) ∧ Carries item (ans a r)
  unpaged : ∀ r, Rs r → ∀ a v, (ans a r).2 = some v → v.get? "start_index" = none

/-- A query that only reads. -/
structure ReadQuery (Rs : Request → Prop) (requests : Dict String Json) : Prop where
  wf : Dict.WF requests
  proper : ∀ m q, (m, q) ∈ requests → JsonText.Proper q
  reads : ∀ m q, (m, q) ∈ requests → Rs (requestFor m q)

/-- The result `r` shows nothing but the answers `ans`, to methods that were asked for, each once. -/
def Shows (ans : Request → Answer) (requests : Dict String Json) (r : Dict String Entry) : Prop :=
  Dict.WF r ∧ ∀ m e, Dict.get? r m = some e → ∃ q, (m, q) ∈ requests ∧ e = entryFor (ans (requestFor m q))

/-- Reading queries, with their retry counts, one after the other. -/
def readings (between : List (Dict String Json × Int)) : List (Smart.Query × Int) := between.map fun b => (.dict b.1, b.2)

section
variable {σ α : Type} (t : Smart.Transport σ) (p : Program α) (uuid : String) (state : σ → α) (s0 : Smart.St σ)

/-- After any queries: a query that reads does not change the device, whether it returns or raises; and when it returns, it shows the
state the device is in, with all methods unless batches had to be given up. -/
def ReadsTruly : Prop :=
  ∀ (Rs : Request → Prop) (ans : α → Request → Answer), Reads p uuid Rs ans →
  ∀ (before : List (Smart.Query × Int)), (∀ q ∈ before, ProperQuery q.1) →
  ∀ (requests : Dict String Json), ReadQuery Rs requests → ∀ (rc : Int),
  let s := queries t before s0
  let got := Smart.query t (.dict requests) rc s
  state got.2.world = state s.world ∧
    ∀ r, got.1 = .ok r → Shows (ans (state s.world)) requests r ∧ (s.batchSize ≠ 1 → ∀ m ∈ requests.keys, m ∈ r.keys)

/-- After any queries: once a query that sets something has returned, and after any number of queries that read, be they answered
or not, a query that reads and returns shows the device as it was set.  If the query that sets raised instead, what is read is the device
as it was set or as it was before. -/
def ReadsBack : Prop :=
  ∀ (Rs : Request → Prop) (ans : α → Request → Answer), Reads p uuid Rs ans →
  ∀ (before : List (Smart.Query × Int)), (∀ q ∈ before, ProperQuery q.1) →
  ∀ (m : String) (q : Json), JsonText.Proper q → ∀ (f : α → α) (v : Json), Sets p uuid (requestFor m q) f v →
  ∀ (between : List (Dict String Json × Int)), (∀ b ∈ between, ReadQuery Rs b.1) →
  ∀ (requests : Dict String Json), ReadQuery Rs requests → ∀ (rc rc' : Int),
  let s := queries t before s0
  let set := Smart.query t (.dict [(m, q)]) rc s
  let got := Smart.query t (.dict requests) rc' (queries t (readings between) set.2)
  ∀ r, got.1 = .ok r →
    (∀ v', set.1 = .ok v' → Shows (ans (f (state s.world))) requests r) ∧
    ∀ e, set.1 = .error e → Shows (ans (state s.world)) requests r ∨ Shows (ans (f (state s.world))) requests r

/-- The update, whose first query has the number `n`, is not cancelled: neither that query nor, if it fails, the queries of the single
methods end in an exception like `CancelledError`. -/
def Uninterrupted (env : SmartDevice.Env) (n : Nat) (req : SmartDevice.Request) : Prop :=
  ∀ e, env.answer n none req = .error e → e.isException = true ∧
    ∀ (i : Nat) kv, req[i]? = some kv → ∀ e, env.answer (n + 1 + i) none [kv] = .error e → e.isException = true

/-- The queries of a device object go over one protocol object, which is in the state `at' n` when the `n`-th of them is made; `asked` are
the queries that have been made. -/
structure Behind (env : SmartDevice.Env) (rc : Int) (at' : Nat → Smart.St σ) (asked : List (Option String × SmartDevice.Request)) : Prop where
  answer : ∀ n req, env.answer n none req = (Smart.query t (.dict req) rc (at' n)).1
  next : ∀ n req, asked[n]? = some (none, req) → at' (n + 1) = (Smart.query t (.dict req) rc (at' n)).2

/-- After any queries, and one that set something and returned, a device object is updated (not for the first time), where everything
it asks for is read: then for each method that is asked for, whatever fails, it holds the answer the device gives in the state it was set to,
or the marker for a query that failed; and what is not asked for stays.  The batch size must not be 1 when the update begins. -/
def UpdateShows : Prop :=
  ∀ (Rs : Request → Prop) (ans : α → Request → Answer), Reads p uuid Rs ans →
  ∀ (before : List (Smart.Query × Int)), (∀ q ∈ before, ProperQuery q.1) →
  ∀ (m : String) (q : Json), JsonText.Proper q → ∀ (f : α → α) (v : Json), Sets p uuid (requestFor m q) f v → ∀ (rc rc' : Int),
  let s := queries t before s0
  let set := Smart.query t (.dict [(m, q)]) rc s
  ∀ v', set.1 = .ok v' →
  ∀ (env : SmartDevice.Env) (at' : Nat → Smart.St σ) (w : SmartDevice.World) (kids : Bool) (u : Rat), w.dev.time = some u → w.dev.id = none →
  Dict.WF w.dev.mods → ReadQuery Rs (SmartDevice.requestOf false (env.clock w.net.ticks) w.dev) →
  Uninterrupted env w.net.asked.length (SmartDevice.requestOf false (env.clock w.net.ticks) w.dev) →
  let after := (SmartDevice.update env true kids w).2
  Behind t env rc' at' after.net.asked → at' w.net.asked.length = set.2 → set.2.batchSize ≠ 1 →
  (∀ k q, (k, q) ∈ SmartDevice.requestOf false (env.clock w.net.ticks) w.dev →
    Dict.get? after.dev.last k = some (entryFor (ans (f (state s.world)) (requestFor k q))) ∨
    Dict.get? after.dev.last k = some (.error (-100001))) ∧
  ∀ k, k ∉ Dict.keys (SmartDevice.requestOf false (env.clock w.net.ticks) w.dev) → Dict.get? after.dev.last k = Dict.get? w.dev.last k

end
end Kasa.EndToEnd
