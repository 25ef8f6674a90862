import Verif.Spec.SmartProtocol
import Verif.Model.ChildProtocol
/-!
# Specification vocabulary for queries to child devices
-/

namespace Kasa.ChildSpec
open Smart SmartSpec

/-- Read one request out of its JSON form. -/
def readRequest (j : Json) : Option Request :=
  match j.get? "method" with
  | some (.str m) => some ⟨m, j.get? "params"⟩
  | _ => none

/-- `body` is an envelope addressed to the child `id` that carries the query `q`. -/
def Carried (id : String) (q : Query) (body : Json) : Prop :=
  body.get? "device_id" = some (.str id) ∧ ∃ rd, body.get? "requestData" = some rd ∧
    match q with
    | .name m => rd.get? "method" = some (.str m) ∧ rd.get? "params" = some .null
    | .dict [(m, p)] => rd.get? "method" = some (.str m) ∧ rd.get? "params" = some p
    | .dict requests => rd.get? "method" = some (.str "multipleRequest") ∧
        ∃ params items, rd.get? "params" = some params ∧ params.get? "requests" = some (.arr items) ∧
          items.map readRequest = requests.map fun kv => some (requestFor kv.1 kv.2)

/-- The request of a camera child: addressed to the child `id`, carrying the method and its params. -/
def CamCarried (id : String) (m : String) (p : Json) (item : Json) : Prop :=
  item.get? "method" = some (.str "controlChild") ∧
  ∃ params control data, item.get? "params" = some params ∧ params.get? "childControl" = some control ∧
    control.get? "device_id" = some (.str id) ∧ control.get? "request_data" = some data ∧
    data.get? "method" = some (.str m) ∧ data.get? "params" = some p

/-- A parent together with a log of what is asked of it. -/
def logged {S : Type} (parent : Child.Parent S) : Child.Parent (S × List (Dict String Json)) :=
  fun req (s, log) => match parent req s with | (r, s') => (r, s', log ++ [req])

/-- The items answer requests of the dictionary, each carrying its answer, in any order. -/
def AnswersSome (ans : Request → Answer) (requests : Dict String Json) (items : List Json) : Prop :=
  ∀ item ∈ items, ∃ m p, (m, p) ∈ requests ∧ item.get? "method" = some (.str m) ∧ Carries item (ans (requestFor m p))

/-- Every request is answered by some item. -/
def AnswersEvery (requests : Dict String Json) (items : List Json) : Prop :=
  ∀ m ∈ requests.keys, ∃ item ∈ items, item.get? "method" = some (.str m)

/-- A child's answer inside the parent's answer. -/
def Inside (response : Dict String Entry) (rd : Json) : Prop :=
  ∃ v, Dict.get? response "control_child" = some (.value v) ∧ v.get? "responseData" = some rd

/-- The i-th item answers the i-th request, for as many items as there are. -/
def CamAnswers (ans : Request → Answer) : Dict String Json → List Json → Prop
  | _, [] => True
  | [], _ :: _ => False
  | (m, p) :: rest, item :: items =>
    (∃ res rd, item.get? "result" = some res ∧ res.get? "response_data" = some rd ∧ Carries rd (ans ⟨m, some p⟩)) ∧
    CamAnswers ans rest items

end Kasa.ChildSpec
