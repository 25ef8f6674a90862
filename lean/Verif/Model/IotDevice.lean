import Verif.Py.Monad
import Verif.Model.SysInfo
/-!
# Legacy devices: commands and updates (iot/iotdevice.py, iot/iotmodule.py)
-/

namespace Kasa.Iot

open Ops

/-! ## Merging queries -/

mutual
/-- The loop of `_merge_dict` (iotmodule.py:17-24): `dest` is a dict.  Simplified: Python changes `dest` in place, and shares
the dicts of `source`. -/
def mergeKvs (dest : List (String × Json)) : List (String × Json) → Except Exc (List (String × Json))
  | [] => .ok dest
  | (k, v) :: source => do
    let x ← mergeVal (Dict.get? dest k) v
    mergeKvs (Dict.set dest k x) source
/-- What the loop puts under a key: `_merge_dict(dest[k], v)` if the key is there and `v` is a dict, else `v`
(iotmodule.py:20-23).  Merging something into what is not a dict raises `TypeError`. -/
def mergeVal : Option Json → Json → Except Exc Json
  | some (.obj dest), .obj source => do
    let r ← mergeKvs dest source
    pure (.obj r)
  | some x, .obj source => if source.isEmpty then .ok x else .error (.other "TypeError")
  | _, v => .ok v
end

/-! ## Commands -/

/-- `_create_request` (iotdevice.py:224-237). -/
def createRequest (target cmd : String) (arg : Option Json) (childIds : Option Json) : Json :=
  let call := Json.obj [(cmd, arg.getD (.obj []))]
  match childIds with
  | none => .obj [(target, call)]
  | some ids => .obj (Dict.set [("context", .obj [("child_ids", ids)])] target call)

/-- `x != 0`; in Python `False == 0`. -/
def nonZero (x : Json) : Bool := !(decide (x = .num 0) || decide (x = .bool false))

/-- `if "err_code" in result and result["err_code"] != 0: raise KasaException` (iotdevice.py:272-273, 278-279). -/
def refuseError (result : Json) : Except Exc Unit := do
  if (← contains result "err_code") then
    if nonZero (← item result "err_code") then .error .kasa else pure ()
  else pure ()

/-- `if "err_code" in result: del result["err_code"]` (iotdevice.py:281-282); only a dict gets here with the key. -/
def dropCode (result : Json) : Json :=
  match result with
  | .obj kvs => .obj (Dict.erase kvs "err_code")
  | x => x

/-- `if key not in x: raise KasaException`, then `x[key]` (iotdevice.py:268-271, 275-277). -/
def need (x : Json) (key : String) : Except Exc Json := do
  if (← contains x key) then item x key else .error .kasa

/-- The part of `_query_helper` after the answer came (iotdevice.py:268-284). -/
def unwrap (target cmd : String) (response : Json) : Except Exc Json := do
  let result ← need response target
  refuseError result
  let result ← need result cmd
  refuseError result
  pure (dropCode result)

/-- `_query_helper` (iotdevice.py:246-284); `send` is the device with the network. -/
def queryHelper (send : Json → Except Exc Json) (target cmd : String) (arg childIds : Option Json) : Except Exc Json :=
  match send (createRequest target cmd arg childIds) with
  | .error e => .error (if e.isException then .kasa else e)
  | .ok response => unwrap target cmd response

/-! ## Updates -/

/-- A module: its class's `_module`, size estimate, query, and `is_supported` if overridden (iot/modules/led.py:34-37 asks for a key in
the data). -/
structure Mod where
  target : String
  size : Nat
  query : List (String × Json)
  needs : Option String := none
  deriving DecidableEq

/-- The state of a device that updates depend on. -/
structure Dev where
  /-- `_last_update`. -/
  lastUpdate : List (String × Json)
  /-- `_sys_info`. -/
  sysInfo : Json
  modules : List Mod
  /-- `_supported_modules`, by position. -/
  supported : Option (List Mod)
  /-- `max_device_response_size` (iotdevice.py:698-701, iotbulb.py:531-534). -/
  budget : Nat

/-- The `sys_info` property (iotdevice.py:465-474) behind `requires_update`.  Simplified: before the first update it always
raises. -/
def Dev.sys (d : Dev) : Except Exc Json := if d.lastUpdate.isEmpty then .error .kasa else .ok d.sysInfo

/-- `IotModule.data` (iotmodule.py:53-67). -/
def Mod.data (m : Mod) (d : Dev) : Except Exc Json :=
  if m.query.isEmpty then d.sys
  else
    match Dict.get? d.lastUpdate m.target with
    | some v => .ok v
    | none => .error .kasa

/-- `is_supported` (iotmodule.py:69-76, iot/modules/led.py:34-37). -/
def Mod.isSupported (m : Mod) (d : Dev) : Except Exc Bool :=
  match m.needs with
  | some key => do contains (← m.data d) key
  | none =>
    if Dict.has d.lastUpdate m.target then do
      let err ← contains (← m.data d) "err_code"
      pure (!err)
    else .ok true

/-- The modules for which `is_supported` holds. -/
def supportedOf (d : Dev) : List Mod → Except Exc (List Mod)
  | [] => .ok []
  | m :: ms => do
    let s ← m.isSupported d
    let rest ← supportedOf d ms
    pure (if s then m :: rest else rest)

/-- The loop building requests (iotdevice.py:397-413), over the supported modules.  `done` are the requests finished,
`est` the estimated size of the answer to `req`. -/
def pack (budget : Nat) (done : List (List (String × Json))) (req : List (String × Json)) (est : Nat) :
    List Mod → Except Exc (List (List (String × Json)))
  | [] => .ok (done ++ [req])
  | m :: ms =>
    if est + m.size > budget then do
      let req' ← mergeKvs [] m.query
      pack budget (done ++ [req]) req' m.size ms
    else do
      let req' ← mergeKvs req m.query
      pack budget done req' (est + m.size) ms

/-- One item of a response: `update.setdefault(k, {}).update(**v)` if `v` is a dict (iotdevice.py:425-433). -/
def mergeItem (upd : List (String × Json)) (kv : String × Json) : Except Exc (List (String × Json)) :=
  match kv.2 with
  | .obj v =>
    match Dict.get? upd kv.1 with
    | none => .ok (Dict.set upd kv.1 (.obj (Dict.update [] v)))
    | some (.obj d) => .ok (Dict.set upd kv.1 (.obj (Dict.update d v)))
    | some _ => .error (.other "AttributeError")
  | _ => .ok upd

def mergeItems (upd : List (String × Json)) : List (String × Json) → Except Exc (List (String × Json))
  | [] => .ok upd
  | kv :: kvs => do
    let upd ← mergeItem upd kv
    mergeItems upd kvs

/-- The merging of the responses (iotdevice.py:419-433). -/
def mergeResponses (upd : List (String × Json)) : List Json → Except Exc (List (String × Json))
  | [] => .ok upd
  | .obj kvs :: rest => do
    let upd ← mergeItems upd kvs
    mergeResponses upd rest
  | _ :: _ => .error (.other "AttributeError")

/-- The world: the device object, and the requests sent so far. -/
structure W where
  dev : Dev
  sent : List Json

/-- The environment: what the device answers, and what modules a device gets. -/
structure Env where
  /-- `protocol.query`: the answer to the last of these requests. -/
  answer : List Json → Except Exc Json
  /-- `_initialize_modules`. -/
  modules : Dev → List Mod
  /-- The `_post_update_hook`s and the creation of features. -/
  hooks : Dev → Except Exc Unit

section
variable (env : Env)

/-- `await self.protocol.query(request)`. -/
def query (request : Json) : PyM W Json := do
  PyM.modifyS (fun w => { w with sent := w.sent ++ [request] })
  let w ← PyM.getS
  PyM.lift (env.answer w.sent)

/-- `[await self.protocol.query(request) for request in request_list if request]` (iotdevice.py:415-417). -/
def queryAll : List (List (String × Json)) → PyM W (List Json)
  | [] => pure []
  | r :: rs =>
    if r.isEmpty then queryAll rs
    else do
      let x ← query env (.obj r)
      let xs ← queryAll rs
      pure (x :: xs)

/-- `if features := sys_info.get("feature"): _parse_features(features)` (iotdevice.py:462-463): they must be text. -/
def checkFeatures : Json → Except Exc Unit
  | .str _ => .ok ()
  | f => if f.truthy then .error (.other "AttributeError") else .ok ()

/-- `self._set_sys_info(_extract_sys_info(..))` (iotdevice.py:459-463).  The features are left out, except that they must be
text. -/
def setSysInfo (info : List (String × Json)) : PyM W Unit := do
  let sys ← PyM.lift (SysInfo.extract (.obj info))
  PyM.modifyS (fun w => { w with dev := { w.dev with sysInfo := sys } })
  let f ← PyM.lift (getOpt sys "feature")
  PyM.lift (checkFeatures (orNone f))

/-- The first answer becomes `_last_update` (iotdevice.py:314-317).  Simplified: an answer that is no dict raises here. -/
def firstAnswer (response : Json) : PyM W Unit :=
  match response with
  | .obj kvs => do
    PyM.modifyS (fun w => { w with dev := { w.dev with lastUpdate := kvs } })
    setSysInfo kvs
  | _ => PyM.raise (.other "AttributeError")

/-- `self._supported_modules` (iotdevice.py:436-443). -/
def setSupported : PyM W Unit := do
  let w ← PyM.getS
  match w.dev.supported with
  | some _ => pure ()
  | none => do
    let s ← PyM.lift (supportedOf w.dev w.dev.modules)
    PyM.modifyS (fun w => { w with dev := { w.dev with supported := some s } })

/-- `_modular_update` (iotdevice.py:395-443). -/
def modularUpdate (req : List (String × Json)) : PyM W Unit := do
  let w ← PyM.getS
  let ms ← PyM.lift (supportedOf w.dev w.dev.modules)
  let requests ← PyM.lift (pack w.dev.budget [] req (if Dict.has req "system" then 1024 else 0) ms)
  let responses ← queryAll env requests
  let upd ← PyM.lift (mergeResponses w.dev.lastUpdate responses)
  PyM.modifyS (fun w => { w with dev := { w.dev with lastUpdate := upd } })
  setSupported

/-- The query for the system information. -/
def sysInfoQuery : List (String × Json) := [("system", .obj [("get_sysinfo", .obj [])])]

/-- The initial part of `update` (iotdevice.py:313-317). -/
def initialUpdate : PyM W Unit := do
  let w ← PyM.getS
  if w.dev.lastUpdate.isEmpty then do
    let r ← query env (.obj sysInfoQuery)
    firstAnswer r
  else pure ()

/-- `if not self._modules: await self._initialize_modules()` (iotdevice.py:319-320). -/
def initModules : PyM W Unit :=
  PyM.modifyS (fun w => if w.dev.modules.isEmpty then { w with dev := { w.dev with modules := env.modules w.dev } } else w)

/-- `IotDevice.update` (iotdevice.py:302-329). -/
def update : PyM W Unit := do
  initialUpdate env
  initModules env
  modularUpdate env sysInfoQuery
  let w ← PyM.getS
  setSysInfo w.dev.lastUpdate
  let w ← PyM.getS
  PyM.lift (env.hooks w.dev)
end

end Kasa.Iot
