import Verif.Py.Coroutine
import Verif.Model.RetryLoop
import Verif.Model.XorTransport
/-!
# Tasks sharing one protocol object

Models `query()` of both protocols called by any number of asyncio tasks:

    async with self._query_lock:
        return await self._query(request, retry_count)

(kasa/protocols/iotprotocol.py:76-83, kasa/protocols/smartprotocol.py:132-135).  The lock is `asyncio.Lock`
(iotprotocol.py:73, smartprotocol.py:114); of it is assumed only that `acquire` succeeds for one of the waiting tasks
at a time, and only while the lock is free (which of the waiters is chosen is left open), and that `async with`
releases it however the body ends.
-/

namespace Kasa.Lock

variable {Op R α σ : Type}

/-- Where a task is in its call of `query()`. -/
inductive TState (Op R α : Type) where
  /-- has not called `query()` yet -/
  | idle
  /-- inside `acquire()` of the lock; the body has not started -/
  | waiting
  /-- inside the body of the `async with`; the coroutine is what remains of it -/
  | running (p : Co Op R α)
  /-- `query()` has returned or raised -/
  | finished (r : Except Exc α)

/-- All tasks, the lock and the world they share. -/
structure Cfg (Op R α σ : Type) where
  world : σ
  holder : Option Nat
  tasks : Nat → TState Op R α
  /-- everything that was done to the world, by whom and with what outcome -/
  log : List (Nat × Op × R)

/-- Replace the state of one task. -/
def upd (f : Nat → TState Op R α) (t : Nat) (x : TState Op R α) : Nat → TState Op R α :=
  fun i => if i = t then x else f i

/-- One step of the event loop; `prog t` is the body `self._query(...)` of task `t`'s call. -/
inductive Step (prim : Op → σ → R → σ → Prop) (prog : Nat → Co Op R α) : Cfg Op R α σ → Cfg Op R α σ → Prop where
  /-- the task calls `query()` and waits for the lock -/
  | call (c : Cfg Op R α σ) (t : Nat) (h : c.tasks t = .idle) :
      Step prim prog c { c with tasks := upd c.tasks t .waiting }
  /-- the task is cancelled while waiting for the lock -/
  | giveUp (c : Cfg Op R α σ) (t : Nat) (h : c.tasks t = .waiting) :
      Step prim prog c { c with tasks := upd c.tasks t (.finished (.error .base)) }
  /-- the task gets the lock -/
  | acquire (c : Cfg Op R α σ) (t : Nat) (h : c.tasks t = .waiting) (hfree : c.holder = none) :
      Step prim prog c { c with tasks := upd c.tasks t (.running (prog t)), holder := some t }
  /-- an operation of the body ends with some outcome, possibly cancellation -/
  | prim (c : Cfg Op R α σ) (t : Nat) (o : Op) (k : R → Co Op R α) (x : R) (w : σ)
      (h : c.tasks t = .running (.op o k)) (hp : prim o c.world x w) :
      Step prim prog c { c with tasks := upd c.tasks t (.running (k x)), world := w, log := c.log ++ [(t, o, x)] }
  /-- the body has ended: the lock is released -/
  | release (c : Cfg Op R α σ) (t : Nat) (r : Except Exc α) (h : c.tasks t = .running (.ret r)) :
      Step prim prog c { c with tasks := upd c.tasks t (.finished r), holder := none }

/-- The start: nobody has called yet. -/
def init (w : σ) : Cfg Op R α σ := ⟨w, none, fun _ => .idle, []⟩

/-- Any number of steps. -/
inductive Steps (prim : Op → σ → R → σ → Prop) (prog : Nat → Co Op R α) (c : Cfg Op R α σ) : Cfg Op R α σ → Prop where
  | refl : Steps prim prog c c
  | tail {c1 c2 : Cfg Op R α σ} (h : Steps prim prog c c1) (h' : Step prim prog c1 c2) : Steps prim prog c c2

/-! ## The legacy protocol over TCP, at the level of messages -/

/-- The operations the legacy transport awaits: opening the connection, writing a request, reading an answer, waiting
for the connection to close; and the back-off sleep of the protocol.  `closeNow` is `close_without_wait`, which does
not wait; it is treated as an operation all the same (so that other tasks might run around it). -/
inductive LOp where
  | connect
  | write (i : Nat)
  | read
  | close
  | closeNow
  | sleep
  deriving DecidableEq, Repr

/-- The TCP connection: not open; open, with these answers written by the device and not read by the client; or open
with part of an answer consumed (whatever is read next is arbitrary). -/
inductive LWorld where
  | none
  | conn (unread : List Nat)
  | torn
  deriving DecidableEq, Repr

/-- What the operations may do (xortransport.py:59-115).  The device answers the requests of a connection in order.  A
read that is given up may have consumed part of an answer.  A failed write may or may not have reached the device. -/
inductive LPrim : LOp → LWorld → Except XorT.Failure Nat → LWorld → Prop where
  | connect_reuse (w : LWorld) (h : w ≠ .none) : LPrim .connect w (.ok 0) w
  | connect_ok : LPrim .connect .none (.ok 0) (.conn [])
  | connect_fail (f : XorT.Failure) : LPrim .connect .none (.error f) .none
  | write_ok (i : Nat) (q : List Nat) : LPrim (.write i) (.conn q) (.ok 0) (.conn (q ++ [i]))
  | write_torn (i : Nat) (x : Except XorT.Failure Nat) : LPrim (.write i) .torn x .torn
  | write_fail (i : Nat) (q : List Nat) (f : XorT.Failure) (reached : Bool) :
      LPrim (.write i) (.conn q) (.error f) (.conn (if reached then q ++ [i] else q))
  | write_none (i : Nat) : LPrim (.write i) .none (.error .exception) .none
  | read_ok (i : Nat) (q : List Nat) : LPrim .read (.conn (i :: q)) (.ok i) (.conn q)
  | read_fail (q : List Nat) (f : XorT.Failure) : LPrim .read (.conn q) (.error f) (.conn q)
  | read_tear (i : Nat) (q : List Nat) (f : XorT.Failure) : LPrim .read (.conn (i :: q)) (.error f) .torn
  | read_torn (x : Except XorT.Failure Nat) : LPrim .read .torn x .torn
  | read_none : LPrim .read .none (.error .exception) .none
  | close (w : LWorld) (cancelled : Bool) : LPrim .close w (if cancelled then .error .base else .ok 0) .none
  | closeNow (w : LWorld) : LPrim .closeNow w (.ok 0) .none
  | sleep (w : LWorld) (cancelled : Bool) : LPrim .sleep w (if cancelled then .error .base else .ok 0) w

/-- Coroutines of the legacy protocol. -/
abbrev LCo := Co LOp (Except XorT.Failure Nat) Nat

/-- `await self.reset()` followed by `raise ex` (xortransport.py:110-115); a cancellation during the wait replaces the
exception. -/
def resetThen (ex : Exc) : LCo :=
  .op .close fun
    | .ok _ => .raise ex
    | .error _ => .raise .base

/-- The exception a failure of the connect phase is turned into (xortransport.py:128-157). -/
def connectExc : XorT.Failure → Exc
  | .timeout => .timeout
  | .refused => .kasa
  | .os noRetry => if noRetry then .kasa else .retryable none
  | .exception => .retryable none
  | .base => .base

/-- The exception a failure of the send phase is turned into (xortransport.py:164-182). -/
def sendExc : XorT.Failure → Exc
  | .timeout => .timeout
  | .refused | .os _ | .exception => .retryable none
  | .base => .base

/-- The `except` clauses of `send`: cancellation closes without waiting, everything else resets. -/
def failed (f : XorT.Failure) (ex : Exc) : LCo :=
  match f with
  | .base => .op .closeNow fun _ => .raise .base
  | _ => resetThen ex

/-- `XorTransport.send` (xortransport.py:117-182) of the request with id `i`; the value returned is the id of the
request whose answer was read. -/
def sendCo (i : Nat) : LCo :=
  .op .connect fun
    | .error f => failed f (connectExc f)
    | .ok _ =>
      .op (.write i) fun
        | .error f => failed f (sendExc f)
        | .ok _ =>
          .op .read fun
            | .error f => failed f (sendExc f)
            | .ok j => .ret (.ok j)

/-- `await self._transport.reset()` in the retry loop. -/
def resetCo : LCo :=
  .op .close fun
    | .ok _ => .ret (.ok 0)
    | .error _ => .raise .base

/-- `await asyncio.sleep(...)` in the retry loop. -/
def sleepCo : LCo :=
  .op .sleep fun
    | .ok _ => .ret (.ok 0)
    | .error _ => .raise .base

/-- The retry loop (iotprotocol.py:86-134) as a coroutine; the same clauses as `Retry.loop`. -/
def loopCo (attempt : LCo) (retryCount : Int) : List Nat → LCo
  | [] => .raise .kasa
  | retry :: rest =>
    attempt.tryExcept fun ex =>
      match ex with
      | .connection =>
        if (retry : Int) ≥ retryCount then .raise ex else loopCo attempt retryCount rest
      | .auth _ => resetCo.bind fun _ => .raise ex
      | .retryable _ => resetCo.bind fun _ =>
          if (retry : Int) ≥ retryCount then .raise ex else loopCo attempt retryCount rest
      | .timeout => resetCo.bind fun _ =>
          if (retry : Int) ≥ retryCount then .raise ex
          else sleepCo.bind fun _ => loopCo attempt retryCount rest
      | .kasa | .unsupported | .device _ => resetCo.bind fun _ => .raise ex
      | .other _ | .base => .raise ex

/-- `IotProtocol._query` (iotprotocol.py:85-137) over the TCP transport, for the request with id `i`. -/
def legacyQuery (i : Nat) (retryCount : Int) : LCo :=
  loopCo (sendCo i) retryCount (List.range (retryCount + 1).toNat)

end Kasa.Lock
