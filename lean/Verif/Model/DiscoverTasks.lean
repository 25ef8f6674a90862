import Verif.Model.Discover
/-!
# The tasks of a search

Models how `Discover.discover` runs on the event loop: `wait_for_discovery_to_complete`, `connection_made`, `do_discover`, the callback
tasks, and the end of `discover` (discover.py:275-336, 409-412, 480-511).  What arrives is handled by `received` (Model/Discover.lean).  A
schedule is a list of events: one step of one of the tasks, a datagram, the end of a callback, or the cancellation of the caller.  Socket
options and logging are omitted.
-/

namespace Kasa.DiscoverTasks
open Discover

/-- `discover_task`: not yet created, created but not started, sleeping with so many rounds left (discover.py:331-336), or over. -/
inductive Search where
  | none
  | created
  | sleeping (left : Nat)
  | over
  | cancelled
  | raised (e : Exc)
  deriving DecidableEq

/-- Whether the search task can no longer run. -/
def Search.ended : Search → Bool
  | .over | .cancelled | .raised _ => true
  | _ => false

/-- Whether it exists and can still run. -/
def Search.active : Search → Bool
  | .created | .sleeping _ => true
  | _ => false

/-- Where the call of `discover` is. -/
inductive Main where
  /-- `await self._started_event.wait()` (discover.py:289-290) -/
  | starting
  /-- `await self.discover_task` (discover.py:295) -/
  | searching
  /-- `await asyncio.gather(*self.callback_tasks)` (discover.py:301): the hosts whose callbacks are waited for, and the first exception of
  one of them -/
  | gathering (hosts : List String) (failed : Option Exc)
  /-- `await device.protocol.close()` (discover.py:503-504): the exception, the hosts closed, the one being closed, those left, and the
  number of devices when this began -/
  | closing (e : Exc) (closed : List String) (current : String) (left : Dict String Dev) (size : Nat)
  | returned (devices : Dict String Dev)
  | raised (e : Exc) (closed : List String)
  deriving DecidableEq

/-- Whether the call is over; the transport is closed then, so nothing is received any more (discover.py:506-507). -/
def Main.ended : Main → Bool
  | .returned _ | .raised _ _ => true
  | _ => false

/-- Everything that matters: the protocol object, its tasks, the call, and what has been sent and slept. -/
structure Sys where
  st : St := St.init
  search : Search := .none
  /-- `discover_task.cancel()` was called and has not taken effect. -/
  cancel : Bool := false
  /-- `callback_tasks`, by host: running, or over with an outcome. -/
  callbacks : List (String × Option (Except Exc Unit)) := []
  main : Main := .starting
  /-- The caller was cancelled and this has not taken effect. -/
  mainCancel : Bool := false
  /-- Rounds of packets sent. -/
  sent : Nat := 0
  /-- Sleeps that ended by themselves. -/
  slept : Nat := 0

/-- What can happen. -/
inductive Ev where
  /-- the transport is ready: `connection_made` -/
  | connected
  /-- it was not ready within `DISCOVERY_START_TIMEOUT` -/
  | startTimeout
  /-- the search task runs: its sleep has ended, or it was cancelled -/
  | searchRuns
  | datagram (dg : Datagram)
  /-- the callback for a host ends -/
  | callbackEnds (host : String) (r : Except Exc Unit)
  /-- the call runs -/
  | mainRuns
  /-- closing a device ends -/
  | closeEnds (r : Except Exc Unit)
  /-- the caller is cancelled -/
  | cancelCaller
  /-- the transport, closed at the end of the call, reports it: `connection_lost` -/
  | lost

section
variable (d : Deps) (o : Options) (packets : Int)

/-- `connection_made` (discover.py:303-321). -/
def connected (s : Sys) : Sys := if s.search = .none ∧ ¬ s.main.ended then { s with search := .created } else s

/-- The head of the loop in `do_discover` (discover.py:331-336). -/
def round (s : Sys) : Nat → Sys
  | 0 => { s with search := .over }
  | left + 1 => if o.target ∈ s.st.seen then { s with search := .over } else { s with search := .sleeping left, sent := s.sent + 1 }

/-- A step of `do_discover` (discover.py:323-336); without packets the division by their number fails. -/
def searchRuns (s : Sys) : Sys :=
  match s.search with
  | .created =>
    if s.cancel then { s with search := .cancelled }
    else if packets = 0 then { s with search := .raised (.other "ZeroDivisionError") }
    else round o s packets.toNat
  | .sleeping left =>
    if s.cancel then { s with search := .cancelled } else round o { s with slept := s.slept + 1 } left
  | _ => s

/-- `datagram_received` (discover.py:338-396): a callback becomes a task (discover.py:282-284), and the search task is cancelled if the
target has answered. -/
def datagram (s : Sys) (dg : Datagram) : Sys :=
  if s.main.ended then s
  else
    let st := received d o { s.st with cancelled := false } dg
    { s with
      st := st
      cancel := s.cancel || (st.cancelled && s.search.active)
      callbacks :=
        if s.st.found.length + s.st.reported.length < st.found.length + st.reported.length then s.callbacks ++ [(dg.ip, none)]
        else s.callbacks }

/-- The end of a callback; the first exception ends `gather`. -/
def callbackEnds (s : Sys) (host : String) (r : Except Exc Unit) : Sys :=
  if (host, none) ∈ s.callbacks then
    { s with
      callbacks := s.callbacks.map fun c => if c = (host, none) then (host, some r) else c
      main := match s.main, r with
        | .gathering hosts none, .error e => if host ∈ hosts then .gathering hosts (some e) else s.main
        | m, _ => m }
  else s

/-- The first exception of a callback that is over. -/
def firstError : List (String × Option (Except Exc Unit)) → Option Exc
  | [] => none
  | (_, some (.error e)) :: _ => some e
  | _ :: rest => firstError rest

/-- The next device to close (discover.py:503-504): the iteration fails if there are more devices than when it began. -/
def closeNext (s : Sys) (e : Exc) (closed : List String) (left : Dict String Dev) (size : Nat) : Sys :=
  if s.st.discovered.length ≠ size then { s with main := .raised (.other "RuntimeError") closed }
  else
    match left with
    | [] => { s with main := .raised e closed }
    | (ip, dev) :: left =>
      match dev.protocol with
      | none => { s with main := .raised (.other "AttributeError") closed }
      | some _ => { s with main := .closing e closed ip left size }

/-- An exception out of `wait_for_discovery_to_complete` (discover.py:502-507). -/
def fail (s : Sys) (e : Exc) : Sys :=
  if e.isKasa ∨ e = .base then closeNext s e [] s.st.discovered s.st.discovered.length
  else { s with main := .raised e [] }

/-- `await asyncio.gather(*self.callback_tasks)` begins (discover.py:301): without tasks it is over at once. -/
def gather (s : Sys) : Sys :=
  if s.callbacks = [] then { s with main := .returned s.st.discovered }
  else { s with main := .gathering (s.callbacks.map Prod.fst) (firstError s.callbacks) }

/-- The search task is over (discover.py:295-301). -/
def searched (s : Sys) : Sys :=
  if s.search = .cancelled ∨ s.mainCancel then
    if s.st.targetDiscovered then gather { s with mainCancel := false } else fail { s with mainCancel := false } .base
  else
    match s.search with
    | .raised e => fail s e
    | _ => gather s

/-- Whether all of these callbacks are over. -/
def allOver (s : Sys) (hosts : List String) : Bool := s.callbacks.all fun c => c.1 ∉ hosts || c.2.isSome

/-- A step of the call. -/
def mainRuns (s : Sys) : Sys :=
  match s.main with
  | .starting => if s.search = .none then s else if s.search.ended then searched s else { s with main := .searching }
  | .searching => if s.search.ended then searched s else s
  | .gathering _ (some e) => fail s e
  | .gathering hosts none =>
    if allOver s hosts then
      if s.mainCancel then fail { s with mainCancel := false } .base else { s with main := .returned s.st.discovered }
    else s
  | _ => s

/-- Closing a device ends (discover.py:503-507). -/
def closeEnds (s : Sys) (r : Except Exc Unit) : Sys :=
  match s.main, r with
  | .closing e closed ip left size, .ok _ => closeNext s e (closed ++ [ip]) left size
  | .closing _ closed ip _ _, .error e' => { s with main := .raised e' (closed ++ [ip]) }
  | _, _ => s

/-- The caller is cancelled: what it waits for is cancelled in turn.  `gather` then waits for its tasks to end or to fail, unless that has
happened already. -/
def cancelCaller (s : Sys) : Sys :=
  match s.main with
  | .starting => fail s .base
  | .searching => { s with mainCancel := true, cancel := s.cancel || s.search.active }
  | .gathering hosts none =>
    if allOver s hosts then { s with main := .gathering hosts (some .base) } else { s with mainCancel := true }
  | .gathering hosts (some _) => { s with main := .gathering hosts (some .base) }
  | .closing _ closed ip _ _ => { s with main := .raised .base (closed ++ [ip]) }
  | _ => s

/-- `DISCOVERY_START_TIMEOUT` has passed (discover.py:289-290). -/
def startTimeout (s : Sys) : Sys :=
  if s.main = .starting ∧ s.search = .none then { s with main := .raised (.other "TimeoutError") [] } else s

/-- `connection_lost` (discover.py:409-412). -/
def lost (s : Sys) : Sys := if s.main.ended then { s with cancel := s.cancel || s.search.active } else s

/-- One event. -/
def step (s : Sys) : Ev → Sys
  | .connected => connected s
  | .startTimeout => startTimeout s
  | .searchRuns => searchRuns o packets s
  | .datagram dg => datagram d o s dg
  | .callbackEnds host r => callbackEnds s host r
  | .mainRuns => mainRuns s
  | .closeEnds r => closeEnds s r
  | .cancelCaller => cancelCaller s
  | .lost => lost s

/-- A schedule. -/
def run (s : Sys) (evs : List Ev) : Sys := evs.foldl (step d o packets) s

end
end Kasa.DiscoverTasks
