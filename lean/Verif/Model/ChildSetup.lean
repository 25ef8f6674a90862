import Verif.Model.Names
/-!
# Pairing of child devices (smart/modules/childsetup.py, smartcam/modules/childsetup.py)

Logging is omitted, except that the texts logged are made of fields that may be missing.
-/

namespace Kasa.ChildSetup
open PyM Ops

/-- A hub, or a hub that is a camera. -/
inductive Kind where
  | hub | camera
  deriving DecidableEq, Repr

/-- What a module may use: `self.call(method, params)`, whose result has the method as its key; `asyncio.sleep`; and
`self._device.update()`, which gives the ids of the children the hub has afterwards, or raises. -/
structure Env (σ : Type) where
  call : String → Json → σ → Except Exc Json × σ
  sleep : Nat → σ → σ
  update : σ → Except Exc (List String) × σ

/-- What was done. -/
inductive Ev where
  | call (method : String) (params : Json)
  | sleep (seconds : Nat)
  | update
  deriving DecidableEq

/-- The environment's state, the keys of `_children`, and what was done. -/
structure St (σ : Type) where
  world : σ
  children : List String
  log : List Ev := []

section
variable {σ : Type} (env : Env σ)

/-- `await self.call(method, params)` (smartmodule.py:162-167). -/
def call (method : String) (params : Json) : PyM (St σ) Json := fun s =>
  ((env.call method params s.world).1, { s with world := (env.call method params s.world).2, log := s.log ++ [.call method params] })

/-- `await asyncio.sleep(timeout)`. -/
def sleep (n : Nat) : PyM (St σ) Unit := fun s =>
  (.ok (), { s with world := env.sleep n s.world, log := s.log ++ [.sleep n] })

/-- `await self._device.update()`.  Simplified: an update that raises leaves the children as they were. -/
def update : PyM (St σ) Unit := fun s =>
  match env.update s.world with
  | (.ok ids, w) => (.ok (), { world := w, children := ids, log := s.log ++ [.update] })
  | (.error e, w) => (.error e, { s with world := w, log := s.log ++ [.update] })

/-- `device_id in self._device._children`. -/
def isChild (id : Json) (children : List String) : Except Exc Bool :=
  match id with
  | .str s => .ok (decide (s ∈ children))
  | .arr _ => .error (.other "TypeError")
  | .obj _ => .error (.other "TypeError")
  | _ => .ok false

/-- The body of the loop of `_add_devices` (smart/modules/childsetup.py:94-103; camera hubs: smartcam/modules/childsetup.py:92-101). -/
def check (children : List String) (successes : List Json) (detected : Json) : Except Exc (List Json) := do
  let id ← item detected "device_id"
  let inside ← isChild id children
  let _ ← item detected "device_model"
  pure (if inside then successes ++ [detected] else successes)

/-- The method and the parameters that add devices (smart/modules/childsetup.py:89; camera hubs: smartcam/modules/childsetup.py:84-87); `detected` is what
the scan gave. -/
def addRequest (k : Kind) (detected list : Json) : String × Json :=
  match k with
  | .hub => ("add_child_device_list", detected)
  | .camera => ("addScanChildDeviceList", .obj [("childControl", .obj [("child_device_list", list)])])

/-- `_add_devices` (smart/modules/childsetup.py:84-105; camera hubs: smartcam/modules/childsetup.py:82-103). -/
def addDevices (k : Kind) (detected : Json) : PyM (St σ) (List Json) := do
  let list ← lift (item detected "child_device_list")
  let r := addRequest k detected list
  let _ ← call env r.1 r.2
  update env
  let s ← getS
  lift (do
    let xs ← Names.iter list
    xs.foldlM (check s.children) [])

/-- The request that asks what was found (smart/modules/childsetup.py:109-110; camera hubs: smartcam/modules/childsetup.py:63-65). -/
def scanRequest (k : Kind) (categories : Json) : String × Json :=
  match k with
  | .hub => ("get_scan_child_device_list", .obj [("scan_list", categories)])
  | .camera => ("getScanChildDeviceList", .obj [("childControl", .obj [("category", categories)])])

/-- The request that starts a scan (smart/modules/childsetup.py:54; camera hubs: smartcam/modules/childsetup.py:56-58). -/
def startRequest (k : Kind) (categories : Json) : String × Json :=
  match k with
  | .hub => ("begin_scanning_child_device", .null)
  | .camera => ("startScanChildDevice", .obj [("childControl", .obj [("category", categories)])])

/-- `pair` (smart/modules/childsetup.py:52-73 and 107-112; camera hubs: smartcam/modules/childsetup.py:54-80).  `categories`
is what the requests name: `self.data["device_category_list"]`, of camera hubs `self._categories`. -/
def pair (k : Kind) (categories : Json) (timeout : Nat) : PyM (St σ) (List Json) := do
  let _ ← call env (startRequest k categories).1 (startRequest k categories).2
  sleep env timeout
  let res ← call env (scanRequest k categories).1 (scanRequest k categories).2
  let detected ← lift (item res (scanRequest k categories).1)
  let list ← lift (item detected "child_device_list")
  if !list.truthy then pure []
  else do
    let _ ← lift (len list)
    addDevices env k detected

/-- The request that removes a device (smart/modules/childsetup.py:79-80; camera hubs: smartcam/modules/childsetup.py:109-110). -/
def removeRequest (k : Kind) (id : String) : String × Json :=
  let list := Json.arr [.obj [("device_id", .str id)]]
  match k with
  | .hub => ("remove_child_device_list", .obj [("child_device_list", list)])
  | .camera => ("removeChildDeviceList", .obj [("childControl", .obj [("child_device_list", list)])])

/-- `unpair` (smart/modules/childsetup.py:75-82; camera hubs: smartcam/modules/childsetup.py:105-112). -/
def unpair (k : Kind) (id : String) : PyM (St σ) Json := do
  let res ← call env (removeRequest k id).1 (removeRequest k id).2
  update env
  pure res

end

end Kasa.ChildSetup
