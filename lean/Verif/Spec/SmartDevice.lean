import Verif.Model.SmartProtocol
/-!
# What a SMART device should hold after an update
-/

namespace Kasa.SmartDevice

open Smart (Entry)

/-- What should be held for a method that was asked for alone: the device's answer if there is one, and the marker
`INTERNAL_QUERY_ERROR` (-100001) if the query failed or was not answered. -/
def outcome (r : Except Exc (List (String × Entry))) (method : String) : Entry :=
  match r with
  | .ok d => (Dict.get? d method).getD (.error (-100001))
  | .error _ => .error (-100001)

/-- The info last reported for a child. -/
def lastReported (rs : List (Option String × Json)) (id : String) : Option Json :=
  ((rs.filter (fun r => r.1 = some id)).getLast?).map (·.2)

/-- Is a child among those reported, and are there components for it? -/
def Listed (comps : List (String × Json)) (rs : List (Option String × Json)) (id : String) : Prop :=
  id ∈ Dict.keys comps ∧ ∃ info, (some id, info) ∈ rs

end Kasa.SmartDevice
