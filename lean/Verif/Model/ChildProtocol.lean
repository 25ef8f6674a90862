import Verif.Model.SmartProtocol
/-!
# Child protocol wrappers

Models `_ChildProtocolWrapper` (kasa/protocols/smartprotocol.py:443-521) and `_ChildCameraProtocolWrapper`
(kasa/protocols/smartcamprotocol.py:202-262).  The parent's `query` is a parameter: it is given the request dictionary
and returns the result dictionary or raises.  `retry_count` is passed on unchanged and left out here.
-/

namespace Kasa.Child
open PyM Smart

/-- The parent's `query`. -/
abbrev Parent (S : Type) := Dict String Json → PyM S (Dict String Entry)

/-- One `{"method": ..., "params": ...}` dict, `params` left out when falsy (smartprotocol.py:470-475). -/
def requestItem (m : String) (p : Json) : Json :=
  .obj (if p.truthy then [("method", .str m), ("params", p)] else [("method", .str m)])

/-- `_get_method_and_params_for_request` (smartprotocol.py:459-481); `None` params are `null`. -/
def methodAndParams : Query → String × Json
  | .dict [(m, p)] => (m, p)
  | .dict requests => ("multipleRequest", .obj [("requests", .arr (requests.map fun kv => requestItem kv.1 kv.2))])
  | .name m => (m, .null)

/-- The wrapped payload (smartprotocol.py:490-499). -/
def envelope (deviceId : String) (mp : String × Json) : Dict String Json :=
  [("control_child", .obj [("device_id", .str deviceId),
    ("requestData", .obj [("method", .str mp.1), ("params", mp.2)])])]

/-- `x.get(k)` on a value that was found truthy: not a dict means `AttributeError`. -/
def getAttr (v : Json) (k : String) : Except Exc (Option Json) :=
  match v with
  | .obj kvs => .ok (Dict.get? kvs k)
  | _ => .error (.other "AttributeError")

/-- Truth value of `x.get(k)`. -/
def optTruthy : Option Json → Bool
  | none => false
  | some v => v.truthy

/-- Loop body over `responses` (smartprotocol.py:509-513).  Simplified: a `method` that is not a string raises. -/
def multiEntry (acc : Dict String Entry) (item : Json) : Except Exc (Dict String Entry) :=
  match item with
  | .obj kvs =>
    match Dict.get? kvs "method" with
    | none => .error (.other "KeyError")
    | some (.str m) => do
      let replaced ← checkResponse false item
      .ok (Dict.set acc m (resultGet item replaced))
    | some _ => .error (.other "TypeError")
  | _ => .error (.other "TypeError")

/-- `for multi_response in multi_responses` (smartprotocol.py:507-514). -/
def multiEntries : List Json → Dict String Entry → Except Exc (Dict String Entry)
  | [], acc => .ok acc
  | item :: items, acc => do
    let acc' ← multiEntry acc item
    multiEntries items acc'

/-- `result and result.get("responses")` (smartprotocol.py:506). -/
def childResponses (res : Option Json) : Except Exc (Option Json) :=
  if optTruthy res then getAttr (res.getD .null) "responses" else .ok none

/-- The child's `responseData` (smartprotocol.py:505-518). -/
def unwrapData (method : String) (rd : Json) : Except Exc (Dict String Entry) :=
  match getAttr rd "result" with
  | .error e => .error e
  | .ok res =>
    match childResponses res with
    | .error e => .error e
    | .ok responses =>
      if optTruthy responses then
        match responses with
        | some (.arr items) => multiEntries items []
        | _ => .error (.other "TypeError")
      else
        match checkResponse true rd with
        | .error e => .error e
        | .ok _ => .ok [(method, .value (res.getD .null))]

/-- Unwrapping the response (smartprotocol.py:502-518). -/
def unwrap (method : String) (response : Dict String Entry) : Except Exc (Dict String Entry) :=
  match Dict.get? response "control_child" with
  | none => .ok [(method, .value .null)]
  | some (.error c) => if c = 0 then .ok [(method, .error c)] else .error (.other "AttributeError")
  | some (.value result) =>
    if result.truthy then
      match getAttr result "responseData" with
      | .error e => .error e
      | .ok rd => if optTruthy rd then unwrapData method (rd.getD .null) else .ok [(method, .value result)]
    else .ok [(method, .value result)]

section
variable {S : Type} (parent : Parent S)

/-- `_ChildProtocolWrapper._query` (smartprotocol.py:487-518). -/
def query (deviceId : String) (q : Query) : PyM S (Dict String Entry) := do
  let mp := methodAndParams q
  let response ← parent (envelope deviceId mp)
  lift (unwrap mp.1 response)

/-- One `controlChild` request (smartcamprotocol.py:229-237). -/
def camItem (deviceId : String) (m : String) (p : Json) : Json :=
  .obj [("method", .str "controlChild"), ("params", .obj [("childControl", .obj [("device_id", .str deviceId),
    ("request_data", .obj [("method", .str m), ("params", p)])])])]

/-- The wrapped payload of a camera child (smartcamprotocol.py:226-241). -/
def camEnvelope (deviceId : String) (requests : Dict String Json) : Dict String Json :=
  [("multipleRequest", .obj [("requests", .arr (requests.map fun kv => camItem deviceId kv.1 kv.2))])]

/-- `response["result"]["response_data"]` (smartcamprotocol.py:252). -/
def responseData (item : Json) : Except Exc Json :=
  match item with
  | .obj kvs =>
    match Dict.get? kvs "result" with
    | none => .error (.other "KeyError")
    | some (.obj kvs') =>
      match Dict.get? kvs' "response_data" with
      | none => .error (.other "KeyError")
      | some rd => .ok rd
    | some _ => .error (.other "TypeError")
  | _ => .error (.other "TypeError")

/-- The loop over the responses, paired with the methods by position (smartcamprotocol.py:251-257). -/
def camEntries (raiseOnError : Bool) : List Json → List String → Dict String Entry → Except Exc (Dict String Entry)
  | [], _, acc => .ok acc
  | item :: items, methods, acc => do
    let rd ← responseData item
    match methods with
    | [] => .error (.other "IndexError")
    | m :: ms => do
      let replaced ← checkResponse raiseOnError rd
      camEntries raiseOnError items ms (Dict.set acc m (resultGet rd replaced))

/-- `response["multipleRequest"]["responses"]` and the loop (smartcamprotocol.py:245-259). -/
def camUnwrap (requests : Dict String Json) (response : Dict String Entry) : Except Exc (Dict String Entry) :=
  match Dict.get? response "multipleRequest" with
  | none => .error (.other "KeyError")
  | some (.value (.obj kvs)) =>
    match Dict.get? kvs "responses" with
    | none => .error (.other "KeyError")
    | some (.arr items) => camEntries (requests.length == 1) items (Dict.keys requests) []
    | some _ => .error (.other "TypeError")
  | some _ => .error (.other "TypeError")

/-- `_ChildCameraProtocolWrapper._query` (smartcamprotocol.py:222-259). -/
def camQuery (deviceId : String) (q : Query) : PyM S (Dict String Entry) :=
  match q with
  | .name _ => raise .kasa
  | .dict requests => do
    let response ← parent (camEnvelope deviceId requests)
    lift (camUnwrap requests response)

end

/-- A query made with the protocol object of a device, or with that of one of its children, which goes through the former
(smartprotocol.py:453-456, 483-501; smart/smartchilddevice.py:85). -/
def ask {σ : Type} (t : Transport σ) (child : Option String) (q : Query) (retries : Int) : PyM (St σ) (Dict String Entry) :=
  match child with
  | none => Smart.query t q retries
  | some id => query (fun req => Smart.query t (.dict req) retries) id q

end Kasa.Child
