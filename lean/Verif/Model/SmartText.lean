import Verif.Model.SmartProtocol
import Verif.Model.JsonText
/-!
# The texts of SMART requests (protocols/smartprotocol.py)
-/

namespace Kasa.SmartText
open Smart

/-- `if params: request["params"] = params`. -/
def paramsField (r : Request) : List (String × Json) :=
  match r.params with
  | some p => [("params", p)]
  | none => []

/-- The dict of `get_smart_request` (smartprotocol.py:121-129); `Request` already leaves out empty params. -/
def smartRequest (uuid : String) (time : Int) (r : Request) : Json :=
  .obj ([("method", .str r.method), ("request_time_milis", .num time), ("terminal_uuid", .str uuid)] ++ paramsField r)

/-- A request in a batch (smartprotocol.py:214-218). -/
def batchItem (r : Request) : Json := .obj (("method", .str r.method) :: paramsField r)

/-- The dict for a single request (smartprotocol.py:342-345) and for a batch (smartprotocol.py:204, 237-238). -/
def wireJson (uuid : String) (time : Int) : Wire → Json
  | .single r => smartRequest uuid time r
  | .multi rs => smartRequest uuid time ⟨"multipleRequest", some (.obj [("requests", .arr (rs.map batchItem))])⟩
  | .raw body => body

/-- The text handed to the transport (smartprotocol.py:130), encoded as the transports do. -/
def wireBytes (lib : JsonText.Lib) (uuid : String) (time : Int) (w : Wire) : Bytes :=
  utf8 (JsonText.dumps lib (wireJson uuid time w))

end Kasa.SmartText
