import Verif.Model.SmartProtocol
import Verif.Spec.ErrorCodes
/-!
# Specification vocabulary for SMART queries

Talks about what is observable: what is sent (`Wire`), what the device answers, and the result dictionary.
-/

namespace Kasa.SmartSpec
open Smart

/-- The batches among the messages sent. -/
def batches : List Wire → List (List Request)
  | [] => []
  | .multi rs :: ws => rs :: batches ws
  | .single _ :: ws => batches ws
  | .raw _ :: ws => batches ws

/-- What the device has to say to one request: an error code, and a result if there is one. -/
abbrev Answer := Int × Option Json

/-- The response object `resp` carries the answer `a`. -/
def Carries (resp : Json) (a : Answer) : Prop :=
  (∃ kvs, resp = .obj kvs) ∧ resp.get? "error_code" = some (.num a.1) ∧ resp.get? "result" = a.2

/-- The entry the caller must find for an answer: the result, or the reported error code. -/
def entryFor (a : Answer) : Entry :=
  if a.1 = 0 then .value (a.2.getD .null) else .error (CodesSpec.reported a.1)

/-- A device that answers every single request with `ans`, and every batch with an arbitrary selection, in any order, of the
answers to the batched requests (some may be missing, as when the device stops after an error).  The device may be
stateful; only the answers are fixed. -/
structure Honest {σ : Type} (t : Transport σ) (ans : Request → Answer) : Prop where
  single : ∀ r w, ∃ resp w', t.send (.single r) w = (.ok resp, w') ∧ Carries resp (ans r)
  multi : ∀ rs w, ∃ resp items w', t.send (.multi rs) w = (.ok resp, w') ∧
    resp.get? "error_code" = some (.num 0) ∧
    (∃ res, resp.get? "result" = some res ∧ res.get? "responses" = some (.arr items)) ∧
    ∀ item ∈ items, ∃ r ∈ rs, item.get? "method" = some (.str r.method) ∧ Carries item (ans r)

/-- A device that never answers a method that was not in the batch. -/
def OnlyAsked {σ : Type} (t : Transport σ) : Prop :=
  ∀ rs w resp res items, (t.send (.multi rs) w).1 = .ok resp → resp.get? "result" = some res →
    res.get? "responses" = some (.arr items) →
    ∀ item ∈ items, ∀ m, item.get? "method" = some (.str m) → m ∈ rs.map Request.method

/-- Methods that devices only answer on their own. -/
def neverBatched : List String := ["getConnectStatus", "scanApList"]

/-- The request for a method with given params; empty params are left out. -/
def requestFor (m : String) (p : Json) : Request := ⟨m, if p.truthy then some p else none⟩

/-- The requests that are to be batched, in the caller's order. -/
def toBatch (requests : Dict String Json) : List Request :=
  (requests.filter fun kv => kv.1 ∉ neverBatched).map fun kv => requestFor kv.1 kv.2

/-- Error codes by which a device shows that it cannot read a batch: the JSON decode failure, the library's stand-in for
unknown errors, and every code the library has no name for. -/
def CannotBatch (c : Int) : Prop := c = -1003 ∨ c = -100000 ∨ c ∉ CodesSpec.documented

/-- No paging: the answers hold no partial lists. -/
def Unpaged (ans : Request → Answer) : Prop :=
  ∀ r v, (ans r).2 = some v → v.get? "start_index" = none

/-! ## Lists that the device hands out page by page -/

/-- The start index asked for: 0 unless the params have one. -/
def startOf (params : Option Json) : Int :=
  match params.bind (fun p => p.get? "start_index") with
  | some (.num n) => n
  | _ => 0

/-- `v` is a page, beginning at `start`, of the list `L` called `name`; a page is not empty unless the list is
exhausted.  Other fields are arbitrary, but no other list comes before it. -/
def PageOf (name : String) (L : List Json) (start : Nat) (v : Json) : Prop :=
  ∃ pre post n, 0 < n ∧ v = .obj (pre ++ (name, .arr ((L.drop start).take n)) :: post) ∧
    Dict.WF (pre ++ (name, .arr ((L.drop start).take n)) :: post) ∧
    (∀ k xs, (k, Json.arr xs) ∉ pre) ∧
    v.get? "start_index" ≠ none ∧ v.get? "sum" = some (.num L.length)

/-- The device hands out the list `L` called `name` for `method`, in pages of sizes of its choice. -/
def Serves {σ : Type} (t : Transport σ) (method name : String) (L : List Json) : Prop :=
  ∀ p w, 0 ≤ startOf p → ∃ resp w' v, t.send (.single ⟨method, p⟩) w = (.ok resp, w') ∧
    Carries resp (0, some v) ∧ PageOf name L (startOf p).toNat v

end Kasa.SmartSpec
