import Verif.Model.Xor
import Verif.Model.Exceptions
/-!
# The legacy TCP transport as a state machine

Models `XorTransport` (kasa/transports/xortransport.py:36-182) against a device that answers the requests of
one TCP connection in order, one answer per request.  Every failure the environment can cause at an `await`
is an input of the model.
-/

namespace Kasa.XorT

/-- What can go wrong at an `await` inside `asyncio_timeout`: the timeout, an `OSError` with the given errno,
another `Exception` (`IncompleteReadError`, ...), or a `BaseException` (cancellation). -/
inductive Failure where
  | timeout
  | refused
  | os (noRetry : Bool)
  | exception
  | base
  deriving DecidableEq, Repr

/-- The client's view of an open connection: which requests were written to it (by request id), and how
many bytes of the answer stream the client has consumed. -/
structure Conn where
  sent : List Nat
  consumed : Nat
  deriving DecidableEq, Repr

/-- `self.reader`/`self.writer` (xortransport.py:44-45): both set or both `None`. -/
structure St where
  conn : Option Conn
  deriving DecidableEq, Repr

/-- The environment's choices during one `send`. -/
structure SendEnv where
  /-- outcome of opening a connection (xortransport.py:63-65), used only when none is open -/
  connect : Option Failure
  /-- failure while writing/draining (xortransport.py:81-82) -/
  write : Option Failure
  /-- how many not yet consumed bytes of the answer stream arrive before the read is given up -/
  arrived : Nat
  /-- sizes of the TCP segments in which they arrive -/
  segments : List Nat
  /-- what ends the read when the answer is not complete -/
  readFailure : Failure
  /-- the task is cancelled again while `reset()` waits for the close (xortransport.py:95-101) -/
  cancelInReset : Bool

/-- Cut a byte string into segments of the given sizes (the last segment takes the rest). -/
def cutBy : List Nat → Bytes → List Bytes
  | [], b => [b]
  | n :: ns, b => b.take n :: cutBy ns (b.drop n)

/-- `XorTransport.close_without_wait` (xortransport.py:103-108). -/
def closeWithoutWait (_ : St) : St := ⟨none⟩

/-- `XorTransport.reset` = `close` (xortransport.py:95-101, 110-115).  Both clear reader and writer before
the only `await`. -/
def reset (s : St) : St := closeWithoutWait s

/-- The exception raised after `await self.reset()` in a handler: the mapped one, unless the task is
cancelled during that `await` (`contextlib.suppress(Exception)` does not catch cancellation). -/
def afterReset (e : SendEnv) (ex : Exc) : Exc := if e.cancelInReset then .base else ex

/-- The `except` clauses of the connect phase (xortransport.py:128-157). -/
def connectFailed (e : SendEnv) (f : Failure) (s : St) : Exc × St :=
  match f with
  | .timeout => (afterReset e .timeout, reset s)
  | .refused => (afterReset e .kasa, reset s)
  | .os noRetry =>
    let s' := reset s
    if noRetry then (afterReset e .kasa, s') else (afterReset e (.retryable none), s')
  | .exception => (afterReset e (.retryable none), reset s)
  | .base => (.base, closeWithoutWait s)

/-- The `except` clauses of the send phase (xortransport.py:164-182). `OSError`s are `Exception`s here. -/
def sendFailed (e : SendEnv) (f : Failure) (s : St) : Exc × St :=
  match f with
  | .timeout => (afterReset e .timeout, reset s)
  | .refused | .os _ | .exception => (afterReset e (.retryable none), reset s)
  | .base => (.base, closeWithoutWait s)

section
variable {Val : Type}
/- `parse`: UTF-8 decoding and `json_loads` of a payload, `none` if they raise.
`answer i`: the payload of the device's answer to request `i`. -/
variable (parse : Bytes → Option Val) (answer : Nat → Bytes)

/-- The byte stream the device sends on a connection to which the requests `sent` were written: one frame
per request, in order. -/
def stream (sent : List Nat) : Bytes :=
  (sent.map fun i => ((Xor.encrypt (answer i)).getD [])).flatten

/-- `XorTransport._connect` (xortransport.py:59-73). -/
def connect (e : SendEnv) (s : St) : Except Failure Conn :=
  match s.conn with
  | some c => .ok c
  | none =>
    match e.connect with
    | none => .ok ⟨[], 0⟩
    | some f => .error f

/-- `XorTransport._execute_send` (xortransport.py:75-93) on an open connection. -/
def executeSend (i : Nat) (request : Bytes) (e : SendEnv) (c : Conn) :
    Except Failure (Val × Conn) :=
  match Xor.encrypt request with
  | none => .error .exception
  | some _ =>
    match e.write with
    | some f => .error f
    | none =>
      let sent := c.sent ++ [i]
      let available := ((stream answer sent).drop c.consumed).take e.arrived
      match Xor.readMessage ⟨[], cutBy e.segments available⟩ with
      | none => .error e.readFailure
      | some (payload, rest) =>
        match parse payload with
        | none => .error .exception
        | some v =>
          .ok (v, ⟨sent, c.consumed + (available.length - (rest.buffer ++ rest.segments.flatten).length)⟩)

/-- `XorTransport.send` (xortransport.py:117-182). -/
def send (i : Nat) (request : Bytes) (e : SendEnv) (s : St) : Except Exc Val × St :=
  match connect e s with
  | .error f => let (ex, s') := connectFailed e f s; (.error ex, s')
  | .ok c =>
    match executeSend parse answer i request e c with
    | .error f => let (ex, s') := sendFailed e f s; (.error ex, s')
    | .ok (v, c') => (.ok v, ⟨some c'⟩)

/-- One operation of a history of a transport object: a request with the environment's choices, or an
explicit `close()`/`reset()`. -/
inductive Op where
  | send (request : Bytes) (e : SendEnv)
  | close

/-- Run a history; the `k`-th operation has request id `k` (counted from `i`). -/
def run (i : Nat) (s : St) : List Op → List (Option (Except Exc Val) × St)
  | [] => []
  | .send request e :: ops =>
    let (r, s') := send parse answer i request e s
    (some r, s') :: run (i + 1) s' ops
  | .close :: ops =>
    let s' := reset s
    (none, s') :: run (i + 1) s' ops

end
end Kasa.XorT
