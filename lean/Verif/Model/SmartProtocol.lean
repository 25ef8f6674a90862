import Verif.Model.ErrorCodes
import Verif.Model.RetryLoop
/-!
# The SMART protocol: single requests, batches, list paging

Models kasa/protocols/smartprotocol.py 93-436.  The transport (and the device behind it) is a parameter.  Requests are
modelled by their method and params; `request_time_milis`, `terminal_uuid` (smartprotocol.py:123-127), JSON text and
logging are left out.
-/

namespace Kasa.Smart
open PyM

/-- One `{"method": ..., "params": ...}`; `params = none` when the key is left out. -/
structure Request where
  method : String
  params : Option Json
  deriving DecidableEq

/-- What goes over the wire in one transport exchange.  `raw` is a camera request, which has no `params` (see
`Kasa.SmartCam`). -/
inductive Wire where
  | single (r : Request)
  | multi (rs : List Request)
  | raw (body : Json)
  deriving DecidableEq

/-- `if params: request["params"] = params` (smartprotocol.py:128-129, and 214-216 for batches). -/
def mkRequest (method : String) (params : Json) : Request :=
  ⟨method, if params.truthy then some params else none⟩

/-- The transport used by the protocol, with the device behind it: `σ` is the state of all that. -/
structure Transport (σ : Type) where
  send : Wire → σ → Except Exc Json × σ
  reset : σ → Except Exc Unit × σ

/-- The protocol object: its current batch size (`_multi_request_batch_size`, smartprotocol.py:115-117), the world
behind the transport, and (ghost) everything sent so far. -/
structure St (σ : Type) where
  batchSize : Nat
  world : σ
  wire : List Wire

/-- An entry of a query result: the device's result (`null` for `None`) or a `SmartErrorCode`. -/
inductive Entry where
  | value (v : Json)
  | error (code : Int)
  deriving DecidableEq

/-- Truth value of an entry (error codes are non-zero). -/
def Entry.truthy : Entry → Bool
  | value v => v.truthy
  | error code => code != 0

/-- `FORCE_SINGLE_REQUEST` (smartprotocol.py:94-97). -/
def forceSingleRequest : List String := ["getConnectStatus", "scanApList"]

/-- `DEFAULT_MULTI_REQUEST_BATCH_SIZE` (smartprotocol.py:104). -/
def defaultBatchSize : Nat := 5

/-- Initial batch size: `config.batch_size or DEFAULT` (smartprotocol.py:115-117). -/
def initialBatchSize (configured : Option Nat) : Nat :=
  match configured with
  | some 0 | none => defaultBatchSize
  | some n => n

/-- The error check of one response dict (smartprotocol.py:408-436): raises, or returns the code that replaces the
result when errors are not raised, or `none` on success.  A response that is not a dict has no `.get`. -/
def checkResponse (raiseOnError : Bool) (resp : Json) : Except Exc (Option Int) :=
  match resp with
  | .obj kvs =>
    if raiseOnError then
      match Codes.protocolCheck (Dict.get? kvs "error_code") with
      | .error e => .error e
      | .ok () => .ok none
    else Codes.protocolCheckNoRaise (Dict.get? kvs "error_code")
  | _ => .error (.other "AttributeError")

/-- `resp.get("result")` after the check (smartprotocol.py:297, 315, 354). -/
def resultGet (resp : Json) (replaced : Option Int) : Entry :=
  match replaced with
  | some code => .error code
  | none => .value ((resp.get? "result").getD .null)

/-- `resp["result"]` after the check (smartprotocol.py:231). -/
def resultIndex (resp : Json) (replaced : Option Int) : Except Exc Entry :=
  match replaced with
  | some code => .ok (.error code)
  | none =>
    match resp.get? "result" with
    | some v => .ok (.value v)
    | none => .error (.other "KeyError")

section
variable {σ : Type} (t : Transport σ)

/-- `await self._transport.send(request)`. -/
def send (w : Wire) : PyM (St σ) Json := fun s =>
  match t.send w s.world with
  | (r, world) => (r, { s with world := world, wire := s.wire ++ [w] })

/-- `_execute_query` for one method without list paging (smartprotocol.py:335-359 with
`iterate_list_pages=False`). -/
def executeSingle (method : String) (params : Json) : PyM (St σ) Json := do
  let resp ← send t (.single (mkRequest method params))
  let _ ← lift (checkResponse true resp)
  pure ((resp.get? "result").getD .null)

/-- `next_batch[response_list_name]` and the emptiness test (smartprotocol.py:397-399).  Simplified: a truthy value
that is not a list raises (Python would extend by the characters of a string or the keys of a dict). -/
def nextBatchList (name : String) (nextBatch : Json) : Except Exc (List Json) :=
  match nextBatch with
  | .obj kvs =>
    match Dict.get? kvs name with
    | none => .error (.other "KeyError")
    | some (.arr xs) => .ok xs
    | some v => if v.truthy then .error (.other "TypeError") else .ok []
  | _ => .error (.other "TypeError")

/-- The `while` loop of `_handle_response_lists` (smartprotocol.py:390-406).  `fetch n` is the `_execute_query` of
the list request with start index `n` (390-396), `items` the list collected so far. -/
def pages (fetch : Nat → PyM (St σ) Json) (name : String) (sum : Int) (items : List Json)
    (s : St σ) : Except Exc (List Json) × St σ :=
  if _h : (items.length : Int) < sum then
    match fetch items.length s with
    | (.error e, s') => (.error e, s')
    | (.ok nextBatch, s') =>
      match nextBatchList name nextBatch with
      | .error e => (.error e, s')
      | .ok [] => (.ok items, s')
      | .ok (x :: xs) => pages fetch name sum (items ++ x :: xs) s'
  else (.ok items, s)
termination_by (sum - items.length).toNat
decreasing_by
  simp only [List.length_append, List.length_cons]
  omega

/-- `list_sum` compared with an `int` (smartprotocol.py:377, 390). -/
def sumValue : Json → Except Exc Int
  | .num n => .ok n
  | .bool b => .ok (if b then 1 else 0)
  | _ => .error (.other "TypeError")

/-- The first key whose value is a list (smartprotocol.py:381-389). -/
def firstListKey (kvs : List (String × Json)) : Option (String × List Json) :=
  match kvs with
  | [] => none
  | (k, .arr xs) :: _ => some (k, xs)
  | _ :: rest => firstListKey rest

/-- `_handle_response_lists` (smartprotocol.py:366-406) on a result; returns the result with the completed list.
Simplified: a result that is not a dict is left alone (the Python `in` test also accepts lists and strings; only a
string or list that contains `"start_index"` itself would then fail).  `next(iter([]))` inside a coroutine becomes a
`RuntimeError`. -/
def handleResponseLists (fetch : Nat → PyM (St σ) Json) (result : Json) : PyM (St σ) Json :=
  match result with
  | .obj kvs =>
    match Dict.get? kvs "start_index", Dict.get? kvs "sum" with
    | none, _ => pure result
    | _, none => pure result
    | _, some .null => pure result
    | some _, some sum =>
      match firstListKey kvs with
      | none => raise (.other "RuntimeError")
      | some (name, items) => do
        let n ← lift (sumValue sum)
        let items' ← (pages fetch name n items : PyM (St σ) (List Json))
        pure (.obj (Dict.set kvs name (.arr items')))
  | _ => pure result

/-- `SmartProtocol._get_list_request` followed by `_execute_query` (smartprotocol.py:361-364, 391-397). -/
def fetchPage (method : String) (start : Nat) : PyM (St σ) Json :=
  executeSingle t method (.obj [("start_index", .num start)])

/-- How a result is completed: `none` when pages are not iterated, else the function that fetches a page of the
given method with the given params. -/
abbrev Pager (σ : Type) := Option (String → Json → Nat → PyM (St σ) Json)

/-- `if iterate_list_pages and result: await self._handle_response_lists(...)` (smartprotocol.py:299-302, 355-358). -/
def completeEntry (pager : Pager σ) (method : String) (params : Json) (entry : Entry) :
    PyM (St σ) Entry :=
  match pager, entry with
  | some fetch, .value v =>
    if v.truthy then do
      let v' ← handleResponseLists (fetch method params) v
      pure (.value v')
    else pure entry
  | _, _ => pure entry

/-- Loop body for one response of a batch (smartprotocol.py:279-303).  Simplified: a truthy `method` that is not a
string raises. -/
def processResponse (pager : Pager σ) (requests : Dict String Json) (raiseOnError : Bool)
    (acc : Dict String Entry) (response : Json) : PyM (St σ) (Dict String Entry) :=
  match response with
  | .obj kvs =>
    match Dict.get? kvs "method" with
    | none => pure acc
    | some (.str method) =>
      if method = "" then pure acc
      else do
        let replaced ← lift (checkResponse raiseOnError response)
        let entry ← completeEntry pager method ((Dict.get? requests method).getD .null)
          (resultGet response replaced)
        pure (acc.set method entry)
    | some v => if v.truthy then raise (.other "TypeError") else pure acc
  | _ => raise (.other "AttributeError")

/-- `response_step["result"]["responses"]` (smartprotocol.py:278). -/
def batchResponses (resp : Json) : Except Exc (List Json) :=
  match resp.get? "result" with
  | none => .error (.other "KeyError")
  | some (.obj kvs) =>
    match Dict.get? kvs "responses" with
    | none => .error (.other "KeyError")
    | some (.arr xs) => .ok xs
    | some _ => .error (.other "TypeError")
  | some _ => .error (.other "TypeError")

/-- The error check of a batch (smartprotocol.py:259-276): an undecodable or unknown error disables batching. -/
def checkBatch (resp : Json) : PyM (St σ) Unit :=
  match checkResponse true resp with
  | .ok _ => pure ()
  | .error ex => do
    let s ← getS
    if ex.isDeviceError && (ex.code == some Codes.jsonDecodeFailError || ex.code == some Codes.internalUnknownError)
        && s.batchSize != 1 then do
      modifyS fun s => { s with batchSize := 1 }
      raise (.retryable none)
    else raise ex

/-- Loop body for one batch (smartprotocol.py:234-303). -/
def sendBatch (pager : Pager σ) (requests : Dict String Json) (raiseOnError : Bool)
    (multiRequests : List Request) (step : Nat) (acc : Dict String Entry) (i : Nat) :
    PyM (St σ) (Dict String Entry) := do
  let resp ← send t (.multi ((multiRequests.drop i).take step))
  checkBatch resp
  let responses ← lift (batchResponses resp)
  foldM (processResponse pager requests raiseOnError) acc responses

/-- `range(0, end, step)` for `step > 0` (smartprotocol.py:234). -/
def batchStarts (stop step : Nat) : List Nat :=
  (List.range ((stop + step - 1) / step)).map (· * step)

/-- Loop body of the re-query of missing methods (smartprotocol.py:307-315). -/
def queryMissing (raiseOnError : Bool) (acc : Dict String Entry) (request : String × Json) :
    PyM (St σ) (Dict String Entry) :=
  if acc.has request.1 then pure acc
  else do
    let resp ← send t (.single (mkRequest request.1 request.2))
    let replaced ← lift (checkResponse raiseOnError resp)
    pure (acc.set request.1 (resultGet resp replaced))

/-- Loop body when batches are disabled (smartprotocol.py:224-231). -/
def queryUnbatched (raiseOnError : Bool) (acc : Dict String Entry) (request : Request) :
    PyM (St σ) (Dict String Entry) := do
  let resp ← send t (.single request)
  let replaced ← lift (checkResponse raiseOnError resp)
  let entry ← lift (resultIndex resp replaced)
  pure (acc.set request.method entry)

/-- The requests that may be batched (smartprotocol.py:214-218). -/
def multiRequests (requests : Dict String Json) : List Request :=
  (requests.filter fun kv => !(forceSingleRequest.contains kv.1)).map fun kv => mkRequest kv.1 kv.2

/-- `_execute_multiple_query` (smartprotocol.py:201-316). -/
def executeMultiple (pager : Pager σ) (requests : Dict String Json) :
    PyM (St σ) (Dict String Entry) := do
  let raiseOnError := requests.length == 1
  let s ← getS
  let step := s.batchSize
  if step = 1 then
    foldM (queryUnbatched t raiseOnError) [] (multiRequests requests)
  else do
    let acc ← foldM (sendBatch t pager requests raiseOnError (multiRequests requests) step) []
      (batchStarts requests.length step)
    foldM (queryMissing t raiseOnError) acc requests

/-- The argument of `query`: a method name or a dict of methods and params. -/
inductive Query where
  | name (method : String)
  | dict (requests : Dict String Json)

/-- `SmartProtocol._execute_query` with `iterate_list_pages=True` (smartprotocol.py:318-359). -/
def executeQuery (q : Query) : PyM (St σ) (Dict String Entry) :=
  let single (method : String) (params : Json) : PyM (St σ) (Dict String Entry) := do
    let result ← executeSingle t method params
    let entry ← completeEntry (some fun m _ n => fetchPage t m n) method params (.value result)
    pure [(method, entry)]
  match q with
  | .name method => single method .null
  | .dict [(method, params)] => single method params
  | .dict requests => executeMultiple t (some fun m _ n => fetchPage t m n) requests

/-- `SmartProtocol.query` (smartprotocol.py:132-199) while holding the lock: the retry loop around
`_execute_query`. -/
def query (q : Query) (retryCount : Int) : PyM (St σ) (Dict String Entry) :=
  Retry.smartQuery
    { attempt := fun _ => executeQuery t q
      reset := fun s => match t.reset s.world with | (r, world) => (r, { s with world := world })
      sleep := pure () }
    retryCount

end
end Kasa.Smart
