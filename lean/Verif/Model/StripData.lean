import Verif.Model.IotDevice
/-!
# The stored answers of a strip and its sockets (iot/iotstrip.py:322-331, iot/iotdevice.py:415-434)

A socket starts with the very dict of its strip, `self._last_update = parent._last_update`, and an update copies only the
outer dict: the inner dicts are shared objects.
-/

namespace Kasa.StripData

/-- The inner dicts that exist, by address.  What stands in them is never changed in place. -/
abbrev Mem := List (List (String × Json))

/-- A value in an outer dict: a dict object or something else. -/
inductive Slot where
  | ref (a : Nat)
  | other (v : Json)
  deriving DecidableEq

/-- An outer dict, `_last_update`.  It is never changed in place after it was stored. -/
abbrev Top := List (String × Slot)

/-- The strip (device 0) and its sockets (devices 1, 2, ...). -/
structure World where
  mem : Mem
  tops : Nat → Top

/-- `update.setdefault(k, {}).update(**v)` if `v` is a dict (iotdevice.py:432-433). -/
def mergeItem (mem : Mem) (top : Top) (kv : String × Json) : Except Exc (Mem × Top) :=
  match kv.2 with
  | .obj v =>
    match Dict.get? top kv.1 with
    | none => .ok (mem ++ [Dict.update [] v], Dict.set top kv.1 (.ref mem.length))
    | some (.ref a) => .ok (mem.set a (Dict.update (mem.getD a []) v), top)
    | some (.other _) => .error (.other "AttributeError")
  | _ => .ok (mem, top)

/-- The inner loop (iotdevice.py:425-433). -/
def mergeItems (mem : Mem) (top : Top) : List (String × Json) → Except Exc (Mem × Top)
  | [] => .ok (mem, top)
  | kv :: kvs => do
    let (mem, top) ← mergeItem mem top kv
    mergeItems mem top kvs

/-- The outer loop (iotdevice.py:424-433). -/
def mergeResponses (mem : Mem) (top : Top) : List (List (String × Json)) → Except Exc (Mem × Top)
  | [] => .ok (mem, top)
  | r :: rs => do
    let (mem, top) ← mergeItems mem top r
    mergeResponses mem top rs

/-- An update of a device that gets these answers. -/
structure Event where
  who : Nat
  answers : List (List (String × Json))

/-- The end of `_modular_update` (iotdevice.py:423-434): the outer dict is copied, the answers are merged, and the result
is stored. -/
def step (w : World) (e : Event) : Except Exc World := do
  let (mem, top) ← mergeResponses w.mem (w.tops e.who) e.answers
  pure { mem, tops := fun i => if i = e.who then top else w.tops i }

/-- A history of updates in which none raises. -/
def run (w : World) : List Event → Except Exc World
  | [] => .ok w
  | e :: es => do
    let w ← step w e
    run w es

/-- The sockets are made: each gets the outer dict of the strip (iotstrip.py:322-327). -/
def created (mem : Mem) (strip : Top) : World := { mem, tops := fun _ => strip }

/-- What stands in a slot under a command. -/
def readSlot (mem : Mem) (s : Option Slot) (cmd : String) : Option Json :=
  match s with
  | some (.ref a) => (mem[a]?).bind (fun d => Dict.get? d cmd)
  | some (.other v) => v.get? cmd
  | none => none

/-- `_last_update[target].get(cmd)`: what a module with that target reads (iotmodule.py:53-67). -/
def data (w : World) (i : Nat) (target cmd : String) : Option Json := readSlot w.mem (Dict.get? (w.tops i) target) cmd

end Kasa.StripData
