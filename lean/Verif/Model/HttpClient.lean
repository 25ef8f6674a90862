import Verif.Py.Bytes
import Verif.Py.Json
import Verif.Model.Exceptions
/-!
# The HTTP client of the transports

Models `HttpClient.post` (kasa/httpclient.py:59-162) and sequences of its calls.  The calls of one client follow each
other (the transports are used under the protocol's lock, see `Model/QueryLock.lean`); times are exact, in seconds.
Not modelled: the session object and its cookies (47-57, 164-177), the headers and the address of the request.
-/

namespace Kasa.Http

/-- What may go wrong inside the `try` of `post` (httpclient.py:104-156), by the classes its handlers distinguish. -/
inductive Fault where
  /-- `aiohttp.ServerDisconnectedError` -/
  | disconnected
  /-- `aiohttp.ClientOSError`, with its subclasses such as `ClientConnectorError` -/
  | osError
  /-- `aiohttp.ServerTimeoutError`, with its subclasses: a time limit of connecting or of one read -/
  | serverTimeout
  /-- Python's own `TimeoutError` (that is `asyncio.TimeoutError`), which aiohttp raises when the limit for the whole
  request - the only one that is configured (95) - passes while it waits for the answer -/
  | totalTimeout
  /-- any other `Exception` -/
  | other
  /-- cancellation and other exceptions that are not an `Exception` -/
  | cancelled
  deriving DecidableEq, Repr

/-- What the device answers: status and body (105-116). -/
abbrev Answer := Except Fault (Int × Bytes)

/-- The second component of what `post` returns: raw or decoded. -/
inductive Body where
  | raw (b : Bytes)
  | json (j : Json)
  deriving DecidableEq

/-- The exception raised for a fault (134-156).  The name `TimeoutError` in line 147 is the one imported from
kasa/exceptions.py (15-19), of which Python's own `TimeoutError` is no instance: that one is handled in line 153. -/
def raised : Fault → Exc
  | .disconnected | .osError => .connection
  | .serverTimeout => .timeout
  | .totalTimeout | .other => .kasa
  | .cancelled => .base

/-- Turning the answer into the result (118-132).  `parse` is `json_loads(response_data.decode())`, `none` if either
raises; `wantJson` is `bool(json)` (92). -/
def decode (parse : Bytes → Option Json) (wantJson : Bool) (a : Answer) : Except Fault (Int × Body) :=
  match a with
  | .error f => .error f
  | .ok (status, b) =>
    if status = 200 then
      if wantJson then
        match parse b with
        | some j => .ok (status, .json j)
        | none => .error .other
      else .ok (status, .raw b)
    else if !b.isEmpty && wantJson then
      match parse b with
      | some j => .ok (status, .json j)
      | none => .ok (status, .raw b)
    else .ok (status, .raw b)

/-- `WAIT_BETWEEN_REQUESTS_ON_OSERROR` (36). -/
def interval : Rat := 1 / 4

/-- The attributes of the client that matter (44-45): `_wait_between_requests`, which is 0 or the interval, and
`_last_request_time`. -/
structure Client where
  wait : Rat := 0
  last : Rat := 0
  deriving DecidableEq

/-- The call of `post` and everything the surroundings do to it: the time since the previous call ended, whether the
task is cancelled while it sleeps, by how much `asyncio.sleep` oversleeps, how long the exchange takes, and what the
device answers.  Negative durations count as none. -/
structure Call where
  idle : Rat
  cut : Bool := false
  over : Rat := 0
  took : Rat
  wantJson : Bool := true
  answer : Answer

/-- A request that was sent: when, when the exchange was over, and what `post` made of it. -/
structure Sent where
  at_ : Rat
  over : Rat
  result : Except Exc (Int × Body)
  deriving DecidableEq

/-- The client, the clock and the requests that were sent so far. -/
structure St where
  client : Client := {}
  clock : Rat := 0
  log : List Sent := []

/-- A duration, made non-negative. -/
def dur (x : Rat) : Rat := if 0 ≤ x then x else 0

/-- How long `post` sleeps before it sends, when called at `now` (76-86). -/
def pause (c : Client) (now : Rat) : Rat :=
  if c.wait ≠ 0 then
    if now - c.last < c.wait then c.wait - (now - c.last) else 0
  else 0

/-- The updates of the attributes when the exchange ended at `now` (135-143, 158-160). -/
def settle (c : Client) (now : Rat) : Except Fault (Int × Body) → Client
  | .error .disconnected | .error .osError =>
    { wait := if c.wait = 0 then interval else c.wait, last := now }
  | .error _ => c
  | .ok _ => if c.wait ≠ 0 then { c with last := now } else c

/-- The result of `post` for the outcome of the `try` (134-162). -/
def outcome : Except Fault (Int × Body) → Except Exc (Int × Body)
  | .ok r => .ok r
  | .error f => .error (raised f)

/-- When the request of a call that begins at `start` is sent: at once, or after sleeping (76-86). -/
def sendTime (c : Client) (start : Rat) (over : Rat) : Rat :=
  if pause c start = 0 then start else start + pause c start + dur over

/-- One call of `post` (59-162).  A call that is cancelled while it sleeps sends nothing. -/
def post (parse : Bytes → Option Json) (s : St) (c : Call) : St :=
  let start := s.clock + dur c.idle
  if pause s.client start ≠ 0 ∧ c.cut then { s with clock := start }
  else
    let sent := sendTime s.client start c.over
    let over := sent + dur c.took
    let r := decode parse c.wantJson c.answer
    { client := settle s.client over r, clock := over, log := s.log ++ [⟨sent, over, outcome r⟩] }

/-- A client's life: from its creation, any number of calls. -/
def history (parse : Bytes → Option Json) (cs : List Call) : St := cs.foldl (post parse) {}

end Kasa.Http
