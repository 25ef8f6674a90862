import Verif.Spec.ReadBack
import Verif.Spec.CamEndToEnd
import Verif.Spec.Camera
import Verif.Model.CamDevice
/-!
# Specification: a camera that is set over an unreliable network
-/

namespace Kasa.CamNetwork
open EndToEnd (Program Reads ReadQuery Shows readings ProperQuery Uninterrupted)
open Smart (Request Entry)
open SmartSpec (Answer requestFor entryFor)
open Camera CameraSpec
open CamEndToEnd (Plain Sets queries)

/-- A query that reads from a camera: all of its methods are sent like any other one. -/
structure CamReadQuery (Rs : Request → Prop) (requests : Dict String Json) : Prop extends ReadQuery Rs requests where
  plain : ∀ m ∈ requests.keys, m ∉ ["get", "set", "do", "multipleRequest"]

section
variable {σ α : Type} (t : Smart.Transport σ) (p : Program α) (uuid : String) (state : σ → α) (s0 : Smart.St σ)

/-- After any queries: a query that reads from the camera does not change it, whether it returns or raises; and when it returns, it shows
the state the camera is in, with all methods unless batches had to be given up. -/
def CamReadsTruly : Prop :=
  ∀ (Rs : Request → Prop) (ans : α → Request → Answer), Reads p uuid Rs ans →
  ∀ (before : List (Smart.Query × Int)), (∀ q ∈ before, ProperQuery q.1) →
  ∀ (requests : Dict String Json), CamReadQuery Rs requests → ∀ (rc : Int),
  let s := queries t before s0
  let got := SmartCam.query t (.dict requests) rc s
  state got.2.world = state s.world ∧
    ∀ r, got.1 = .ok r → Shows (ans (state s.world)) requests r ∧ (s.batchSize ≠ 1 → ∀ m ∈ requests.keys, m ∈ r.keys)

/-- After any queries: once a query that sets something has returned, and after any number of queries that read, be they answered
or not, a query that reads and returns shows the camera as it was set.  If the query that sets raised instead, what is read is the camera
as it was set or as it was before. -/
def CamReadsBack : Prop :=
  ∀ (Rs : Request → Prop) (ans : α → Request → Answer), Reads p uuid Rs ans →
  ∀ (before : List (Smart.Query × Int)), (∀ q ∈ before, ProperQuery q.1) →
  ∀ (m : String) (q : Json), Plain m → JsonText.Proper q → ∀ (f : α → α) (v : Json), Sets p uuid (requestFor m q) f v →
  ∀ (between : List (Dict String Json × Int)), (∀ b ∈ between, CamReadQuery Rs b.1) →
  ∀ (requests : Dict String Json), CamReadQuery Rs requests → ∀ (rc rc' : Int),
  let s := queries t before s0
  let set := SmartCam.query t (.dict [(m, q)]) rc s
  let got := SmartCam.query t (.dict requests) rc' (queries t (readings between) set.2)
  ∀ r, got.1 = .ok r →
    (∀ v', set.1 = .ok v' → Shows (ans (f (state s.world))) requests r) ∧
    ∀ e, set.1 = .error e → Shows (ans (state s.world)) requests r ∨ Shows (ans (f (state s.world))) requests r

/-- The queries of a camera object go over one protocol object, which is in the state `at' n` when the `n`-th of them is made; `asked` are
the queries that have been made. -/
structure CamBehind (env : SmartDevice.Env) (rc : Int) (at' : Nat → Smart.St σ) (asked : List (Option String × SmartDevice.Request)) : Prop where
  answer : ∀ n req, env.answer n none req = (SmartCam.query t (.dict req) rc (at' n)).1
  next : ∀ n req, asked[n]? = some (none, req) → at' (n + 1) = (SmartCam.query t (.dict req) rc (at' n)).2

/-- After any queries, and one that set something and returned, a camera object is updated (not for the first time), where everything
it asks for is read: then for each method that is asked for, whatever fails, it holds the answer the camera gives in the state it was set to,
or the marker for a query that failed; and what is not asked for stays.  The batch size must not be 1 when the update begins. -/
def CamUpdateShows : Prop :=
  ∀ (Rs : Request → Prop) (ans : α → Request → Answer), Reads p uuid Rs ans →
  ∀ (before : List (Smart.Query × Int)), (∀ q ∈ before, ProperQuery q.1) →
  ∀ (m : String) (q : Json), Plain m → JsonText.Proper q → ∀ (f : α → α) (v : Json), Sets p uuid (requestFor m q) f v → ∀ (rc rc' : Int),
  let s := queries t before s0
  let set := SmartCam.query t (.dict [(m, q)]) rc s
  ∀ v', set.1 = .ok v' →
  ∀ (env : CamDevice.CamEnv) (at' : Nat → Smart.St σ) (w : SmartDevice.World) (kids : Bool) (u : Rat), w.dev.time = some u → w.dev.id = none →
  Dict.WF w.dev.mods → CamReadQuery Rs (SmartDevice.requestOf false (env.base.clock w.net.ticks) w.dev) →
  Uninterrupted env.base w.net.asked.length (SmartDevice.requestOf false (env.base.clock w.net.ticks) w.dev) →
  let after := (CamDevice.update env true kids w).2
  CamBehind t env.base rc' at' after.net.asked → at' w.net.asked.length = set.2 → set.2.batchSize ≠ 1 →
  (∀ k q, (k, q) ∈ SmartDevice.requestOf false (env.base.clock w.net.ticks) w.dev →
    Dict.get? after.dev.last k = some (entryFor (ans (f (state s.world)) (requestFor k q))) ∨
    Dict.get? after.dev.last k = some (.error (-100001))) ∧
  ∀ k, k ∉ Dict.keys (SmartDevice.requestOf false (env.base.clock w.net.ticks) w.dev) → Dict.get? after.dev.last k = Dict.get? w.dev.last k

end

/-! ## The switches of a camera -/

/-- How a camera writes a switch. -/
def onOff (on : Bool) : Json := .str (if on then "on" else "off")

/-- The program `p` is that of a camera with the switches `have_`: it keeps a section with a field `enabled` for each of them, reports the
section when asked for it, and stores what it is told.  The requests `Rs` read, and are answered as `ans` says. -/
structure IsCamera {α : Type} (p : Program α) (uuid : String) (Rs : Request → Prop) (ans : α → Request → Answer) (have_ : List Switch)
    (store : α → Store) : Prop where
  reads : Reads p uuid Rs ans
  report : ∀ w ∈ have_, ∀ method, (method, home w) ∈ readers → ∀ a,
    ans a (requestFor method (.obj [((home w).1, .obj [("name", .str (home w).2)])])) =
      (0, some (.obj [((home w).1, .obj [((home w).2, .obj (store a (home w).1 (home w).2))])]))
  stores : ∀ w ∈ have_, ∀ method, (method, home w) ∈ writers → ∀ on, ∃ f v,
    Sets p uuid (requestFor method (.obj [((home w).1, .obj [((home w).2, .obj [("enabled", onOff on)])])])) f v ∧
    ∀ a, ∀ w' ∈ have_, Dict.get? (store (f a) (home w').1 (home w').2) "enabled" =
      if w' = w then some (onOff on) else Dict.get? (store a (home w').1 (home w').2) "enabled"

/-- The state of the switches that a camera has. -/
def PanelOf (have_ : List Switch) (s : Store) (P : Panel) : Prop :=
  ∀ w ∈ have_, Dict.get? (s (home w).1 (home w).2) "enabled" = some (onOff (P w))

/-- What a caller does: flip a switch or turn the camera on or off, or a query that reads, with a retry count. -/
inductive Step where
  | set (op : Op)
  | read (requests : Dict String Json) (retries : Int)

section
variable {σ : Type} (t : Smart.Transport σ)

/-- What a method of the library does that makes this request, with the three retries of a query, or none. -/
def perform (request : Option Json) (s : Smart.St σ) : Except Exc (Dict String Entry) × Smart.St σ :=
  match request with
  | some (.obj requests) => SmartCam.query t (.dict requests) 3 s
  | _ => (.ok [], s)

/-- The steps one after the other: the operations with their outcomes, and the protocol object in the end. -/
def run (have_ : List Switch) : List Step → Smart.St σ → List (Op × Except Exc (Dict String Entry)) × Smart.St σ
  | [], s => ([], s)
  | .set op :: steps, s =>
    let r := perform t (send have_ op) s
    let rest := run have_ steps r.2
    ((op, r.1) :: rest.1, rest.2)
  | .read requests retries :: steps, s => run have_ steps (SmartCam.query t (.dict requests) retries s).2

end

/-- The operations, with these outcomes, take the switches from one state to the other: an operation that returned was carried out; one
that raised was carried out or not; and nothing else happened. -/
inductive Explains {β : Type} (have_ : List Switch) : Panel → List (Op × Except Exc β) → Panel → Prop where
  | nil (P) : Explains have_ P [] P
  | returned {P Q op r rest} : Explains have_ (P.apply have_ op) rest Q → Explains have_ P ((op, .ok r) :: rest) Q
  | failed {P Q op e rest} : Explains have_ P rest Q → Explains have_ P ((op, .error e) :: rest) Q
  | unanswered {P Q op e rest} : Explains have_ (P.apply have_ op) rest Q → Explains have_ P ((op, .error e) :: rest) Q

/-- The queries of the modules of these switches are among the requests. -/
def AsksFor (have_ : List Switch) (requests : Dict String Json) : Prop :=
  ∀ w ∈ have_, ∃ kvs, query w = .obj kvs ∧ ∀ kv ∈ kvs, kv ∈ requests

section
variable {σ α : Type} (t : Smart.Transport σ) (p : Program α) (uuid : String) (state : σ → α) (s0 : Smart.St σ)

/-- A camera with the switches `have_`, which are `P0` at first, is set and read in any way over this transport.  Then at any time
its switches are in a state `P` that the operations and their outcomes explain, and every query that asks for them and returns shows this: each
switch as it is, and the camera on unless its lens is masked. -/
def CameraShows : Prop :=
  ∀ (Rs : Request → Prop) (ans : α → Request → Answer) (have_ : List Switch) (store : α → Store), IsCamera p uuid Rs ans have_ store →
  ∀ (P0 : Panel), PanelOf have_ (store (state s0.world)) P0 →
  ∀ (steps : List Step), (∀ requests rc, .read requests rc ∈ steps → CamReadQuery Rs requests) →
  let after := run t have_ steps s0
  ∃ P, Explains have_ P0 after.1 P ∧
    ∀ requests rc r, CamReadQuery Rs requests → AsksFor have_ requests → (SmartCam.query t (.dict requests) rc after.2).1 = .ok r →
      after.2.batchSize ≠ 1 →
      (∀ w ∈ have_, enabled w r = .ok (P w)) ∧
      isOn (.present false) (decide (.lensMask ∈ have_)) r = .ok (if Switch.lensMask ∈ have_ then !P .lensMask else true)

end
end Kasa.CamNetwork
