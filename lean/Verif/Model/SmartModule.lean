import Verif.Model.SmartProtocol
import Verif.Py.Num
/-!
# Modules of newer devices: when they are queried and what they read (smart/smartmodule.py, smartcam/smartcammodule.py)
-/

namespace Kasa.SmartModule

open Smart (Entry)

/-! ## When a module is queried -/

/-- What a module keeps about its updates (smart/smartmodule.py:77-79): `_last_update_time`, whether `_last_update_error` is set,
`_error_count`. -/
structure State where
  last : Option Rat
  failed : Bool
  errors : Nat
  deriving DecidableEq

/-- A new module (smart/smartmodule.py:74-80). -/
def fresh : State := ⟨none, false, 0⟩

/-- `MINIMUM_UPDATE_INTERVAL_SECS` of the module (smart/smartmodule.py:67) and `_is_hub_child` of its device. -/
structure Kind where
  interval : Nat
  hubChild : Bool

/-- `_set_error` (smart/smartmodule.py:89-110), without the log messages. -/
def setError (s : State) (failed : Bool) : State :=
  if failed then { s with failed := true, errors := s.errors + 1 } else { s with failed := false, errors := 0 }

/-- `update_interval` (smart/smartmodule.py:112-121). -/
def updateInterval (k : Kind) (s : State) : Nat :=
  if s.failed then 30 * s.errors else if k.hubChild then 60 * 60 * 24 else k.interval

/-- `disabled` (smart/smartmodule.py:123-126). -/
def disabled (s : State) : Bool := decide (s.errors ≥ 10)

/-- `_should_update` (smart/smartmodule.py:128-134); a time of 0 counts as none. -/
def shouldUpdate (k : Kind) (s : State) (t : Rat) : Bool :=
  updateInterval k s == 0 ||
    match s.last with
    | none => true
    | some u => u == 0 || decide (((updateInterval k s : Nat) : Rat) ≤ t - u)

/-- `_handle_module_post_update` (smart/smartdevice.py:300-319), given whether `_post_update_hook` ends normally. -/
def postUpdate (s : State) (t : Rat) (hadQuery hookOk : Bool) : State :=
  if disabled s then s
  else
    let s := if hadQuery then { s with last := some t } else s
    if hookOk then setError s false
    else if hadQuery then setError s true
    else s

/-- What happens to a module.
* `update t done ok`: an update of the device at time `t`, after its first; `done` is whether it got as far as the modules'
  hooks (smart/smartdevice.py:321-365, smart/smartchilddevice.py:79-110), `ok` whether the hook of this one ended normally.
* `preload t ok`: the first update of the device, for a module whose data was read before (smart/smartdevice.py:335-337).
* `cloud t ok`: the hook that is run for the cloud module before that (smart/smartdevice.py:274-275).
* `command`: a method marked with `allow_update_after` has been called, with any outcome (smart/smartmodule.py:33-37). -/
inductive Event where
  | update (t : Rat) (done ok : Bool)
  | preload (t : Rat) (ok : Bool)
  | cloud (t : Rat) (ok : Bool)
  | command

/-- Whether a module with a query is queried by an update (smart/smartdevice.py:329-340, smart/smartchilddevice.py:89-95). -/
def queried (k : Kind) (s : State) (t : Rat) : Bool := !disabled s && shouldUpdate k s t

/-- The effect of an event on a module with a query. -/
def step (k : Kind) (s : State) : Event → State
  | .update t done ok => if done then postUpdate s t (queried k s t) ok else s
  | .preload t ok => postUpdate { s with last := some t } t false ok
  | .cloud t ok => postUpdate s t true ok
  | .command => { s with last := none }

/-- A module after a history, newest event first. -/
def run (k : Kind) : List Event → State
  | [] => fresh
  | e :: es => step k (run k es) e

/-! ## What a module reads -/

/-- What `data` gives: the device info, the answer to a single query, or answers by query. -/
inductive Data where
  | sysInfo
  | bare (v : Entry)
  | dict (d : List (String × Entry))
  deriving DecidableEq

/-- `isinstance(.., SmartErrorCode)`. -/
def errorCode : Entry → Option Int
  | .error c => some c
  | .value _ => none

/-- The check for errors (smart/smartmodule.py:210-219): the keys to remove. -/
def removable (optional : List String) : List (String × Entry) → Except Exc (List String)
  | [] => .ok []
  | (k, v) :: rest =>
    match errorCode v with
    | none => removable optional rest
    | some c =>
      if optional.contains k then (removable optional rest).map (k :: ·)
      else .error (.device (some c))

/-- `{k: v for k, v in dev._last_update.items() if k in q_keys}`. -/
def select (keys : List String) (last : List (String × Entry)) : List (String × Entry) := last.filter (fun p => keys.contains p.1)

/-- The end of `data` (smart/smartmodule.py:221-237). -/
def unwrap (filtered : List (String × Entry)) (remove : List String) : Data :=
  let kept := filtered.filter (fun p => !remove.contains p.1)
  match kept, remove with
  | [p], [] => .bare p.2
  | _, _ => .dict kept

def dataOf (keys optional : List String) (last : List (String × Entry)) : Except Exc Data := do
  let remove ← removable optional (select keys last)
  pure (unwrap (select keys last) remove)

/-- `data` (smart/smartmodule.py:178-237): `keys` are those of the module's query, `last` is the device's last update and
`parent` that of its parent. -/
def data (keys optional : List String) (last : List (String × Entry)) (parent : Option (List (String × Entry))) : Except Exc Data :=
  match keys with
  | [] => .ok .sysInfo
  | first :: _ =>
    if Dict.has last first then dataOf keys optional last
    else
      match parent with
      | some p => if Dict.has p first then dataOf keys optional p else .error .kasa
      | none => .error .kasa

/-! ## Cameras -/

/-- What a camera's module reads. -/
inductive CamData where
  | sysInfo
  | bare (v : Json)
  | dict (d : List (String × Entry))

/-- `query_resp.get(self.QUERY_MODULE_NAME, query_resp)`. -/
def camSection (module : String) : Json → Except Exc Json
  | .obj kvs => .ok ((Dict.get? kvs module).getD (.obj kvs))
  | _ => .error (.other "AttributeError")

/-- The loop over the queries (smartcam/smartcammodule.py:100-110). -/
def camCheck (last : List (String × Entry)) : List String → Except Exc Unit
  | [] => .ok ()
  | k :: rest =>
    match Dict.get? last k with
    | none => .error .kasa
    | some (.error c) => .error (.device (some c))
    | some (.value _) => camCheck last rest

/-- `data` of a camera's module (smartcam/smartcammodule.py:73-111). -/
def camData (getter module : String) (keys : List String) (last : List (String × Entry)) : Except Exc CamData :=
  match keys with
  | [] => .ok .sysInfo
  | [_] =>
    match Dict.get? last getter with
    | some (.error c) => .error (.device (some c))
    | some (.value v) => if v.truthy then (camSection module v).map .bare else .error .kasa
    | none => .error .kasa
  | keys => (camCheck last keys).map (fun _ => .dict (select keys last))

/-- `data` of a legacy module (iot/iotmodule.py:52-67): `none` is the device info. -/
def iotData (hasQuery : Bool) (module : String) (last : List (String × Json)) : Except Exc (Option Json) :=
  if !hasQuery then .ok none
  else
    match Dict.get? last module with
    | some v => .ok (some v)
    | none => .error .kasa

end Kasa.SmartModule
