import Verif.Model.SmartProtocol
/-!
# The camera protocol

Models kasa/protocols/smartcamprotocol.py 28-199 (`SmartCamProtocol`).  Method names are lists of characters where they
are rewritten; `str.isupper` and `str.lower` are modelled for ASCII letters only.
-/

namespace Kasa.SmartCam
open PyM Smart

/-- `GET_METHODS_AS_DO` (smartcamprotocol.py:28-36). -/
def getMethodsAsDo : List String :=
  ["getSdCardFormatStatus", "getConnectionType", "getUserID", "getP2PSharePassword", "getAESEncryptKey",
   "getFirmwareAFResult", "getWhitelampStatus"]

/-- `s.lstrip("_")`. -/
def lstripUnderscore (s : List Char) : List Char := s.dropWhile (· == '_')

/-- `_make_snake_name` (smartcamprotocol.py:113-117). -/
def makeSnakeName (name : List Char) : List Char :=
  lstripUnderscore (name.flatMap fun i => if i.isUpper then ['_', i.toLower] else [i])

/-- `SingleRequest` (smartcamprotocol.py:39-46). -/
structure SingleRequest where
  methodType : String
  methodName : String
  paramName : String
  request : Json
  deriving DecidableEq

/-- `_make_smart_camera_single_request` (smartcamprotocol.py:119-142).  The request body is a dict literal, so a
parameter called `method` overwrites the method type. -/
def makeSingleRequest (request : String) : SingleRequest :=
  let snake := makeSnakeName request.toList
  let short := String.ofList (request.toList.take 3)
  if (short = "get" ∨ short = "set") ∧ request ∉ getMethodsAsDo then
    let param := String.ofList (snake.drop 4)
    ⟨short, request, param, .obj (Dict.set [("method", .str short)] param (.obj []))⟩
  else
    let param := String.ofList snake
    ⟨"do", request, param, .obj (Dict.set [("method", .str "do")] param (.obj []))⟩

/-- `_get_smart_camera_single_request` (smartcamprotocol.py:94-111) for a dict with the one key `method`. -/
def getSingleRequest (method : String) (params : Json) : Except Exc SingleRequest :=
  if method = "multipleRequest" then
    .ok ⟨"multi", "multipleRequest", "", .obj [("method", .str "multipleRequest"), ("params", params)]⟩
  else
    match params with
    | .obj ((param, v) :: _) => .ok ⟨method, method, param, .obj (Dict.set [("method", .str method)] param v)⟩
    | .obj [] => .error (.other "RuntimeError")
    | _ => .error (.other "TypeError")

/-- The processing of the response of a single request (smartcamprotocol.py:168-199).  A response that is not a dict
is left out of the model (`TypeError`). -/
def singleResponse (r : SingleRequest) (resp : Json) : Except Exc (Dict String Entry) :=
  match resp with
  | .obj kvs =>
    let check : Except Exc Unit :=
      match Dict.get? kvs "error_code" with
      | none => .ok ()
      | some c => Codes.protocolCheck (some c)
    match check with
    | .error e => .error e
    | .ok () =>
      let rest : Except Exc (Dict String Entry) :=
        if r.methodType = "do" then .ok [(r.methodName, .value resp)]
        else if r.methodType = "set" then .ok []
        else if r.methodType = "multi" then
          match Dict.get? kvs "result" with
          | some v => .ok [(r.methodName, .value v)]
          | none => .error (.other "KeyError")
        else
          match Dict.get? kvs r.paramName with
          | some v => .ok [(r.methodName, .value (.obj [(r.paramName, v)]))]
          | none => .error (.other "KeyError")
      if r.methodType = "get" then
        match kvs with
        | [] => .error (.other "RuntimeError")
        | (section_, v) :: _ => if section_ = "" ∨ v = .obj [] then .error (.device none) else rest
      else rest
  | _ => .error (.other "TypeError")

/-- The methods sent as they are when they are the only one (smartcamprotocol.py:150). -/
def rawMethods : List String := ["get", "set", "do", "multipleRequest"]

section
variable {σ : Type} (t : Transport σ)

/-- The single-request branch of `_execute_query` (smartcamprotocol.py:159-199). -/
def executeRaw (r : SingleRequest) : PyM (St σ) (Dict String Entry) := do
  let resp ← send t (.raw r.request)
  lift (singleResponse r resp)

/-- `_get_list_request` and the `_execute_query` of the next page (smartcamprotocol.py:52-58, smartprotocol.py:391-397):
the page is asked for as a batch of one.  Left out: a method called "get", "set", "do" or "multipleRequest" that is
paged. -/
def fetchPage (method : String) (params : Json) (start : Nat) : PyM (St σ) Json :=
  match params with
  | .obj ((module, _) :: _) => do
    let r ← executeMultiple t none [(method, .obj [(module, .obj [("start_index", .num start)])])]
    match Dict.get? r method with
    | some (.value v) => pure v
    | some (.error _) => raise (.other "TypeError")
    | none => raise (.other "KeyError")
  | .obj [] => raise (.other "RuntimeError")
  | _ => raise (.other "TypeError")

/-- `SmartCamProtocol._execute_query` (smartcamprotocol.py:144-199). -/
def executeQuery (q : Query) : PyM (St σ) (Dict String Entry) :=
  match q with
  | .name m => executeRaw t (makeSingleRequest m)
  | .dict [] => raise (.other "RuntimeError")
  | .dict [(m, p)] =>
    if m ∈ rawMethods then do
      let r ← lift (getSingleRequest m p)
      executeRaw t r
    else executeMultiple t (some (fetchPage t)) [(m, p)]
  | .dict requests => executeMultiple t (some (fetchPage t)) requests

/-- `SmartProtocol.query` with the camera's `_execute_query` (smartprotocol.py:132-199). -/
def query (q : Query) (retryCount : Int) : PyM (St σ) (Dict String Entry) :=
  Retry.smartQuery
    { attempt := fun _ => executeQuery t q
      reset := fun s => match t.reset s.world with | (r, world) => (r, { s with world := world })
      sleep := pure () }
    retryCount

end
end Kasa.SmartCam
