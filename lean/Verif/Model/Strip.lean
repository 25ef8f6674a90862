import Verif.Model.IotDevice
import Verif.Model.OnSince
/-!
# Legacy power strips (iot/iotstrip.py): switching, and the state of the whole strip
-/

namespace Kasa.Strip

open Ops

/-- A socket: its id, and the cached time it was turned on (iotstrip.py:322-331). -/
structure Plug where
  id : Json
  since : Option Int
  deriving DecidableEq

/-- `for plug in ..: if plug["id"] == self.child_id: return plug` (iotstrip.py:485-491). -/
def findInfo (id : Json) : List Json → Except Exc Json
  | [] => .error .kasa
  | p :: ps => do
    let i ← item p "id"
    if i = id then pure p else findInfo id ps

/-- `self._parent.sys_info["children"]` as something to loop over.  Simplified: anything but a list raises. -/
def entries (sys : Json) : Except Exc (List Json) := do
  match (← item sys "children") with
  | .arr xs => pure xs
  | _ => .error (.other "TypeError")

/-- `_get_child_info` (iotstrip.py:483-491); `sys` is the system information of the strip. -/
def childInfo (sys : Json) (id : Json) : Except Exc Json := do findInfo id (← entries sys)

/-- `IotStripPlug.is_on` (iotstrip.py:417-422). -/
def plugIsOn (sys : Json) (id : Json) : Except Exc Bool := do
  let info ← childInfo sys id
  let state ← item info "state"
  pure state.truthy

/-- `IotStrip.is_on`: `any(..)` over the children (iotstrip.py:118-122); it stops at the first that is on. -/
def isOn (sys : Json) : List Plug → Except Exc Bool
  | [] => .ok false
  | p :: ps => do
    if (← plugIsOn sys p.id) then pure true else isOn sys ps

/-- `_children` (iotstrip.py:137-142), from the system information of the first update: a socket per entry, one for each
id. -/
def childrenFrom (done : List Plug) : List Json → Except Exc (List Plug)
  | [] => .ok done
  | c :: cs => do
    let id ← item c "id"
    childrenFrom (if done.any (fun p => decide (p.id = id)) then done else done ++ [⟨id, none⟩]) cs

/-- The children made at the first update (iotstrip.py:132-144). -/
def initChildren (sys : Json) : Except Exc (List Plug) := do childrenFrom [] (← entries sys)

/-- The environment of a command: what the device answers, and the system information known to the strip object once these
requests have been sent (another task may update the strip meanwhile). -/
structure Env where
  answer : List Json → Except Exc Json
  sys : List Json → Json

/-- `plug.turn_on()` / `plug.turn_off()` (iotplug.py:75-81, through iotstrip.py:405-415): a command with the socket's id.
The state is the list of requests sent. -/
def switch (env : Env) (id : Json) (state : Int) : PyM (List Json) Unit := do
  let req := Iot.createRequest "system" "set_relay_state" (some (.obj [("state", .num state)])) (some (.arr [id]))
  PyM.modifyS (fun sent => sent ++ [req])
  let sent ← PyM.getS
  let _ ← PyM.lift (Iot.queryHelper (fun _ => env.answer sent) "system" "set_relay_state"
    (some (.obj [("state", .num state)])) (some (.arr [id])))
  pure ()

/-- One step of `turn_on` (iotstrip.py:164-166) or `turn_off` (iotstrip.py:171-173): `on` is the state wanted. -/
def switchPlug (env : Env) (on : Bool) (p : Plug) : PyM (List Json) Unit := do
  let sent ← PyM.getS
  let b ← PyM.lift (plugIsOn (env.sys sent) p.id)
  if b = on then pure () else switch env p.id (if on then 1 else 0)

/-- `IotStrip.turn_on` (iotstrip.py:162-167) and `turn_off` (iotstrip.py:169-174). -/
def switchAll (env : Env) (on : Bool) (plugs : List Plug) : PyM (List Json) Unit :=
  PyM.forEach (switchPlug env on) plugs

/-- What `IotStripPlug.on_since` reads (iotstrip.py:460-467): the socket must say how long it is on. -/
def plugReading (sys : Json) (time : Int) (id : Json) : Except Exc OnSince.Reading := do
  if (← plugIsOn sys id) then
    let info ← childInfo sys id
    match (← item info "on_time") with
    | .num t => pure ⟨true, some t, time⟩
    | _ => .error (.other "TypeError")
  else pure ⟨false, none, time⟩

/-- `IotStripPlug.on_since` (iotstrip.py:456-474) with its cache. -/
def plugOnSince (sys : Json) (time : Int) (p : Plug) : Except Exc (Option Int × Plug) := do
  let r ← plugReading sys time p.id
  let v := OnSince.read p.since r
  pure (v, { p with since := v })

/-- The generator in `IotStrip.on_since` (iotstrip.py:183): the property is read once for the condition and, if it is not
`None`, once more for the value. -/
def sinces (sys : Json) (time : Int) : List Plug → Except Exc (List Int)
  | [] => .ok []
  | p :: ps => do
    let (v, p) ← plugOnSince sys time p
    if v.isSome then
      let (v, _) ← plugOnSince sys time p
      let rest ← sinces sys time ps
      pure (v.toList ++ rest)
    else sinces sys time ps

/-- `min(..)`; of nothing it raises `ValueError`. -/
def minimum : List Int → Except Exc Int
  | [] => .error (.other "ValueError")
  | x :: xs => .ok (xs.foldl min x)

/-- `IotStrip.on_since` (iotstrip.py:176-183). -/
def onSince (sys : Json) (time : Int) (plugs : List Plug) : Except Exc (Option Int) := do
  if (← isOn sys plugs) then
    let vs ← sinces sys time plugs
    let m ← minimum vs
    pure (some m)
  else pure none

end Kasa.Strip
