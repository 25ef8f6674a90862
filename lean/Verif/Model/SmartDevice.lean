import Verif.Model.SmartModule
import Verif.Model.DeviceInfo
/-!
# Updating a SMART device and its children (smart/smartdevice.py, smart/smartchilddevice.py)
-/

namespace Kasa.SmartDevice

open Smart (Entry)
open Codes (internalQueryError)
open PyM
open SmartModule (State Kind fresh disabled shouldUpdate postUpdate)

abbrev Request := List (String × Json)
abbrev Answers := List (String × Entry)

/-- What the code of a module can see of its device: components, info, last update, the parent's last update, names of the modules. -/
structure View where
  comps : List (String × Int)
  info : Json
  last : Answers
  up : Option Answers
  mods : List String

/-- A registered module class: name, REQUIRED_COMPONENT, SYSINFO_LOOKUP_KEYS, membership in NON_HUB_PARENT_ONLY_MODULES
(smartdevice.py:42) and FIRST_UPDATE_MODULES (smartdevice.py:53), MINIMUM_UPDATE_INTERVAL_SECS, and what its code does: `query`,
`_check_supported`, `_post_update_hook`, `_initialize_features`.  The last four are arbitrary functions of what they can see.
Simplified: hooks do not query, and a module's query is computed once, since the versions, the kind of the device and
`_state_in_sysinfo` it depends on are fixed when the module is created. -/
structure Cls where
  name : String
  component : String
  sysKeys : List String
  parentOnly : Bool
  firstUpdate : Bool
  interval : Nat
  query : View → Request
  supported : View → Except Exc Bool
  hook : View → Except Exc Unit
  features : View → Except Exc (List String)

/-- The registered modules, in order, and the two that combine others (smartdevice.py:439-449). -/
structure Registry where
  classes : List Cls
  light : Cls
  thermostat : Cls

/-- A module of a device. -/
structure Mod where
  cls : Cls
  query : Request
  sched : State

/-- A device (smartdevice.py:66-78, smartchilddevice.py:38-53).  `id` is the id of a child, `parent` whether its parent is a hub,
`uid` the identity of the object, `cam` whether it is a `SmartCamChild`, the child of a camera hub that is a camera itself. -/
structure Dev where
  uid : Nat
  id : Option String
  parent : Option Bool
  comps : List (String × Int)
  kind : SysInfo.DeviceType
  info : Json
  last : Answers
  mods : List (String × Mod)
  time : Option Rat
  feats : List String
  cam : Bool

/-- The queries made so far and the number of times the clock was read. -/
structure Net where
  asked : List (Option String × Request)
  ticks : Nat

/-- The surroundings: the answer to the n-th query, the clock, the registered modules, and for which info a child can be created
(always, except on camera hubs). -/
structure Env where
  answer : Nat → Option String → Request → Except Exc Answers
  clock : Nat → Rat
  reg : Registry
  creatable : Json → Bool

/-- One device at work: with the last update of its parent. -/
structure Local where
  dev : Dev
  up : Option Answers
  net : Net

/-- A device with its children; `born` counts created objects. -/
structure World where
  dev : Dev
  kids : List (String × Dev)
  net : Net
  born : Nat

def Dev.hubChild (d : Dev) : Bool := d.parent = some true

def viewOf (l : Local) : View := ⟨l.dev.comps, l.dev.info, l.dev.last, l.up, Dict.keys l.dev.mods⟩

/-- `await self.protocol.query(req)`; children ask through their parent's protocol (smartchilddevice.py:48). -/
def ask (env : Env) (req : Request) : PyM Local Answers := fun l =>
  (env.answer l.net.asked.length l.dev.id req, { l with net := { l.net with asked := l.net.asked ++ [(l.dev.id, req)] } })

/-- `time.monotonic()`. -/
def now (env : Env) : PyM Local Rat := fun l => (.ok (env.clock l.net.ticks), { l with net := { l.net with ticks := l.net.ticks + 1 } })

def modifyDev (f : Dev → Dev) : PyM Local Unit := modifyS fun l => { l with dev := f l.dev }

/-! ## Modules -/

def Mod.kind (d : Dev) (m : Mod) : Kind := ⟨m.cls.interval, d.hubChild⟩

def setSched (name : String) (m : Mod) (s : State) (d : Dev) : Dev := { d with mods := Dict.set d.mods name { m with sched := s } }

/-- `_handle_module_post_update` (smartdevice.py:300-319) after the check for `disabled`. -/
def runHook (t : Rat) (name : String) (hadQuery : Bool) (m : Mod) : PyM Local Unit := fun l =>
  match m.cls.hook (viewOf l) with
  | .ok _ => (.ok (), { l with dev := setSched name m (postUpdate m.sched t hadQuery true) l.dev })
  | .error e =>
    if e.isException then (.ok (), { l with dev := setSched name m (postUpdate m.sched t hadQuery false) l.dev })
    else (.error e, { l with dev := setSched name m (if hadQuery then { m.sched with last := some t } else m.sched) l.dev })

/-- `_handle_module_post_update` (smartdevice.py:300-319). -/
def handlePost (t : Rat) (hadQuery : String → Bool) (name : String) : PyM Local Unit := fun l =>
  match Dict.get? l.dev.mods name with
  | none => (.ok (), l)
  | some m => if disabled m.sched then (.ok (), l) else runHook t name (hadQuery name) m l

/-- `for module in self._modules.values(): await self._handle_module_post_update(...)` (smartdevice.py:359-363,
smartchilddevice.py:106-109). -/
def postAll (t : Rat) (hadQuery : String → Bool) : PyM Local Unit := fun l => forEach (handlePost t hadQuery) (Dict.keys l.dev.mods) l

/-- Is a module of those whose query is collected (smartdevice.py:329-333)? -/
def wanted (first : Bool) (m : Mod) : Bool := (first || !disabled m.sched) && !m.query.isEmpty

/-- Is a module queried (smartdevice.py:334-340)? -/
def due (first : Bool) (t : Rat) (d : Dev) (m : Mod) : Bool :=
  wanted first m && !(first && m.cls.firstUpdate) && shouldUpdate (m.kind d) m.sched t

def dueNames (first : Bool) (t : Rat) (d : Dev) : List String := Dict.keys (d.mods.filter (fun p => due first t d p.2))

/-- `req.update(query)` over the modules that are queried. -/
def requestOf (first : Bool) (t : Rat) (d : Dev) : Request :=
  (d.mods.filter (fun p => due first t d p.2)).foldl (fun r p => Dict.update r p.2.query) []

/-- `module._last_update_time = update_time` for the modules of the negotiation (smartdevice.py:335-337). -/
def markPreloaded (first : Bool) (t : Rat) (d : Dev) : Dev :=
  { d with mods := d.mods.map fun p =>
      (p.1, if wanted first p.2 && (first && p.2.cls.firstUpdate) then { p.2 with sched := { p.2.sched with last := some t } } else p.2) }

/-- The answer to a single method; a missing one raises. -/
def pick (m : String) (r : Answers) : PyM Local Entry :=
  match Dict.get? r m with
  | some e => pure e
  | none => raise (.other "KeyError")

/-- The body of the loop of `_handle_modular_update_error` (smartdevice.py:389-401). -/
def askOne (env : Env) (p : String × Json) : PyM Local Entry :=
  tryExcept (ask env [p] >>= pick p.1) fun e => if e.isException then pure (.error internalQueryError) else raise e

/-- `_handle_modular_update_error` (smartdevice.py:367-402). -/
def askEach (env : Env) (req : Request) : PyM Local Answers :=
  foldM (fun acc p => askOne env p >>= fun e => pure (Dict.set acc p.1 e)) [] req

/-- The query of the modules (smartdevice.py:348-353, smartchilddevice.py:98-103). -/
def askModules (env : Env) (req : Request) : PyM Local Answers :=
  tryExcept (ask env req) fun e => if e.isException then askEach env req else raise e

/-- `_try_get_response` without default (smartdevice.py:180-198). -/
def tryGet (r : Answers) (name : String) : Except Exc Json :=
  match Dict.get? r name with
  | some (.value v) => if v = .null then .error .kasa else .ok v
  | _ => .error .kasa

/-- `_update_internal_info(info_resp)` (smartdevice.py:355-357): on the first update `info_resp` is the stored state, which has been
updated by then. -/
def takeInfo (first : Bool) (resp : Answers) : PyM Local Unit := fun l =>
  match tryGet (if first then l.dev.last else resp) "get_device_info" with
  | .ok i => (.ok (), { l with dev := { l.dev with info := i } })
  | .error e => (.error e, l)

/-- `_modular_update` (smartdevice.py:321-365). -/
def modularUpdate (env : Env) (first : Bool) (t : Rat) : PyM Local Unit := do
  let l ← getS
  modifyDev (markPreloaded first t)
  let resp ← askModules env (requestOf first t l.dev)
  modifyDev fun d => { d with last := Dict.update d.last resp }
  takeInfo first resp
  postAll t (fun n => (dueNames first t l.dev).contains n)

/-! ## The first update -/

def initialQuery : Request := [("component_nego", .null), ("get_device_info", .null), ("get_connect_cloud_state", .null)]
def childQuery : Request := [("get_child_device_component_list", .null), ("get_child_device_list", .null)]

/-- One component; simplified: `TypeError` unless the id is a string and the version a number. -/
def parseComponent (c : Json) : Except Exc (String × Int) := do
  match (← Ops.item c "id"), (← Ops.item c "ver_code") with
  | .str i, .num v => pure (i, v)
  | _, _ => .error (.other "TypeError")

def parseComponents : List Json → Except Exc (List (String × Int))
  | [] => .ok []
  | c :: cs => do
    let p ← parseComponent c
    let rest ← parseComponents cs
    pure (p :: rest)

/-- `_parse_components` (smartdevice.py:200-205), a dict. -/
def componentsOf (raw : Json) : Except Exc (List (String × Int)) := do
  let cs ← DeviceInfo.items (← Ops.item raw "component_list")
  let ps ← parseComponents cs
  pure (Dict.update [] ps)

/-- `resp["component_nego"]`, parsed; an error code has no items. -/
def negotiated (resp : Answers) : Except Exc (List (String × Int)) :=
  match Dict.get? resp "component_nego" with
  | none => .error (.other "KeyError")
  | some (.error _) => .error (.other "TypeError")
  | some (.value v) => componentsOf v

/-- The type a kind is made from (smartdevice.py:845). -/
def typeOf (info : Json) : Option String :=
  match info.get? "type" with
  | some (.str s) => some s
  | some _ => none
  | none =>
    match info.get? "device_type" with
    | some (.str s) => some s
    | _ => none

/-- `_initialize_children` (smartdevice.py:80-87) if there are child devices and none yet (smartdevice.py:231-232). -/
def queryChildren (env : Env) : PyM Local Unit := fun l =>
  if Dict.has l.dev.comps "child_device" then
    (ask env childQuery >>= fun r => modifyDev fun d => { d with last := Dict.update d.last r }) l
  else (.ok (), l)

def setComps (cs : List (String × Int)) (d : Dev) : Dev :=
  { d with comps := cs, kind := DeviceInfo.smartDeviceType d.kind (typeOf d.info) (Dict.keys cs) }

/-- `_negotiate` (smartdevice.py:207-232); the kind, which is remembered when first asked for, is determined here. -/
def negotiate (env : Env) : PyM Local Unit := do
  let resp ← ask env initialQuery
  modifyDev fun d => { d with last := Dict.update d.last resp }
  let info ← lift (tryGet resp "get_device_info")
  modifyDev fun d => { d with info := info }
  let cs ← lift (negotiated resp)
  modifyDev (setComps cs)
  queryChildren env

/-- Is the module one that the device says it has (smartdevice.py:425-428)? -/
def mentioned (d : Dev) (c : Cls) : Bool :=
  Dict.has d.comps c.component ||
    c.sysKeys.any (fun k => match d.info.get? k with | some .null => false | some _ => true | none => false)

def newMod (c : Cls) (v : View) : Mod := ⟨c, c.query v, fresh⟩

/-- `if await module._check_supported(): self._modules[module.name] = module` (smartdevice.py:435-437). -/
def addSupported (c : Cls) : PyM Local Unit := fun l =>
  match c.supported (viewOf l) with
  | .error e => (.error e, l)
  | .ok true => (.ok (), { l with dev := { l.dev with mods := Dict.set l.dev.mods c.name (newMod c (viewOf l)) } })
  | .ok false => (.ok (), l)

/-- The loop of `_initialize_modules` (smartdevice.py:420-437). -/
def addModule (c : Cls) : PyM Local Unit := fun l =>
  if l.dev.parent = some false && c.parentOnly then (.ok (), l)
  else if mentioned l.dev c then addSupported c l
  else (.ok (), l)

def hasMod (d : Dev) (n : String) : Bool := Dict.has d.mods n

def addLight (reg : Registry) (l : Local) : Local :=
  if hasMod l.dev "Brightness" || hasMod l.dev "Color" || hasMod l.dev "ColorTemperature" then
    { l with dev := { l.dev with mods := Dict.set l.dev.mods "Light" (newMod reg.light (viewOf l)) } }
  else l

def addThermostat (reg : Registry) (l : Local) : Local :=
  if hasMod l.dev "TemperatureControl" && hasMod l.dev "TemperatureSensor" then
    { l with dev := { l.dev with mods := Dict.set l.dev.mods "Thermostat" (newMod reg.thermostat (viewOf l)) } }
  else l

/-- `self._modules.move_to_end(Time.__name__, last=False)` (smartdevice.py:453-454). -/
def timeFirst (l : Local) : Local :=
  match Dict.get? l.dev.mods "Time" with
  | some m => { l with dev := { l.dev with mods := ("Time", m) :: Dict.erase l.dev.mods "Time" } }
  | none => l

/-- `_initialize_modules` (smartdevice.py:404-454). -/
def initModules (env : Env) : PyM Local Unit := do
  forEach addModule env.reg.classes
  modifyS fun l => timeFirst (addThermostat env.reg (addLight env.reg l))

/-! ## Features -/

/-- `_add_feature` (device.py:453-458): a second feature with the same id raises. -/
def addFeature (name : String) : PyM Local Unit := fun l =>
  if l.dev.feats.contains name then (.error .kasa, l)
  else (.ok (), { l with dev := { l.dev with feats := l.dev.feats ++ [name] } })

/-- The features of the device itself (smartdevice.py:458-561), without the one for unpairing. -/
def ownFeatures (info : Json) : List String :=
  ["device_id"] ++
  (if (info.get? "device_on").isSome then ["state"] else []) ++
  (if (info.get? "signal_level").isSome then ["signal_level"] else []) ++
  (if (info.get? "rssi").isSome then ["rssi"] else []) ++
  (if (info.get? "ssid").isSome then ["ssid"] else []) ++
  (if (info.get? "on_time").isSome then ["on_since"] else []) ++
  ["reboot"]

/-- The features of a module (smartdevice.py:563-566). -/
def moduleFeatures (name : String) : PyM Local Unit := fun l =>
  match Dict.get? l.dev.mods name with
  | none => (.ok (), l)
  | some m =>
    match m.cls.features (viewOf l) with
    | .error e => (.error e, l)
    | .ok fs => forEach addFeature fs l

/-- `_initialize_features` (smartdevice.py:456-566), if there are none yet (smartdevice.py:293-294, smartchilddevice.py:114-115). -/
def initFeatures : PyM Local Unit := fun l =>
  if l.dev.feats.isEmpty then
    (forEach addFeature (ownFeatures l.dev.info) >>= fun _ => forEach moduleFeatures (Dict.keys l.dev.mods)) l
  else (.ok (), l)

/-! ## Children -/

/-- The query of a child's modules, if there is one (smartchilddevice.py:96-104): the answers replace those before. -/
def childQueryModules (env : Env) (req : Request) : PyM Local Unit :=
  if req.isEmpty then pure ()
  else askModules env req >>= fun r => modifyDev fun d => { d with last := r }

/-- `SmartChildDevice._update` (smartchilddevice.py:79-115). -/
def childUpdate (env : Env) : PyM Local Unit := do
  let t ← now env
  let l ← getS
  childQueryModules env (requestOf false t l.dev)
  postAll t (fun n => (dueNames false t l.dev).contains n)
  modifyDev fun d => { d with time := some t }
  initFeatures

/-- Run on the device itself. -/
def onDev {α : Type} (m : PyM Local α) : PyM World α := fun w =>
  let out := m ⟨w.dev, none, w.net⟩
  (out.1, { w with dev := out.2.dev, net := out.2.net })

/-- Run on a child. -/
def onKid (id : String) (m : PyM Local Unit) : PyM World Unit := fun w =>
  match Dict.get? w.kids id with
  | none => (.ok (), w)
  | some d =>
    let out := m ⟨d, some w.dev.last, w.net⟩
    (out.1, { w with kids := Dict.set w.kids id out.2.dev, net := out.2.net })

/-- An entry of the list of children: `info.get("device_id")` and the info; simplified: an id that is not a string counts as
missing. -/
def report (info : Json) : Except Exc (Option String × Json) := do
  match (← Ops.getOpt info "device_id") with
  | some (.str s) => pure (if s.isEmpty then none else some s, info)
  | _ => pure (none, info)

def reportAll : List Json → Except Exc (List (Option String × Json))
  | [] => .ok []
  | i :: is => do
    let r ← report i
    let rest ← reportAll is
    pure (r :: rest)

/-- `child_device_resp["child_device_list"]`. -/
def reports (resp : Json) : Except Exc (List (Option String × Json)) := do
  reportAll (← DeviceInfo.items (← Ops.item resp "child_device_list"))

def idOf (c : Json) : Except Exc (String × Json) := do
  match (← Ops.item c "device_id") with
  | .str s => pure (s, c)
  | _ => .error (.other "TypeError")

def idAll : List Json → Except Exc (List (String × Json))
  | [] => .ok []
  | c :: cs => do
    let p ← idOf c
    let rest ← idAll cs
    pure (p :: rest)

/-- `{child["device_id"]: child for child in ...["child_component_list"]}` (smartdevice.py:112-115). -/
def componentsById : Option Entry → Except Exc (List (String × Json))
  | none => .error (.other "KeyError")
  | some (.error _) => .error (.other "TypeError")
  | some (.value v) => do
    let ps ← idAll (← DeviceInfo.items (← Ops.item v "child_component_list"))
    pure (Dict.update [] ps)

/-- A new child (smartchilddevice.py:38-53). -/
def newChild (uid : Nat) (id : String) (hub : Bool) (info : Json) (cs : List (String × Int)) : Dev :=
  ⟨uid, some id, some hub, cs, .unknown, info, [], [], none, [], false⟩

def isHub (d : Dev) : Bool := d.kind = .hub

/-- `SmartChildDevice.create` (smartchilddevice.py:117-140). -/
def createChild (env : Env) (id : String) (info raw : Json) : PyM World Dev := fun w =>
  match componentsOf raw with
  | .error e => (.error e, w)
  | .ok cs =>
    let out := initModules env ⟨newChild w.born id (isHub w.dev) info cs, some w.dev.last, w.net⟩
    match out.1 with
    | .error e => (.error e, { w with net := out.2.net, born := w.born + 1 })
    | .ok _ => (.ok out.2.dev, { w with net := out.2.net, born := w.born + 1 })

/-- One entry of the list of children (smartdevice.py:120-151); `existing` are the ids at the start.  Gives whether a child was
created. -/
def considerChild (env : Env) (existing : List String) (comps : List (String × Json)) (r : Option String × Json) : PyM World Bool := fun w =>
  match r.1 with
  | none => (.ok false, w)
  | some id =>
    match Dict.get? comps id with
    | none => (.ok false, w)
    | some raw =>
      if existing.contains id then (.ok false, w)
      else if env.creatable r.2 then
        (createChild env id r.2 raw >>= fun d => modifyS (fun w => { w with kids := Dict.set w.kids id d }) >>= fun _ => pure true) w
      else (.ok false, w)

/-- The ids that are reported and have components: `child_ids`. -/
def presentIds (comps : List (String × Json)) (rs : List (Option String × Json)) : List String :=
  rs.filterMap fun r => r.1.bind fun id => if Dict.has comps id then some id else none

/-- `_create_delete_children` (smartdevice.py:100-168). -/
def createDelete (env : Env) (comps : List (String × Json)) (rs : List (Option String × Json)) : PyM World Bool := fun w =>
  let existing := Dict.keys w.kids
  let removed := existing.filter (fun id => !(presentIds comps rs).contains id)
  (foldM (fun changed r => considerChild env existing comps r >>= fun c => pure (changed || c)) false rs >>= fun changed =>
    modifyS (fun w => { w with kids := removed.foldl (fun k id => Dict.erase k id) w.kids }) >>= fun _ =>
    pure (changed || !removed.isEmpty)) w

/-- `self._children[child_id]._update_internal_state(info)` (smartdevice.py:247-253). -/
def pushInfo (w : World) (r : Option String × Json) : World :=
  match r.1 with
  | none => w
  | some id =>
    match Dict.get? w.kids id with
    | none => w
    | some d => { w with kids := Dict.set w.kids id { d with info := r.2 } }

/-- `_try_get_response(self._last_update, "get_child_device_list", {})`, if not empty. -/
def childList (last : Answers) : Option Json :=
  match Dict.get? last "get_child_device_list" with
  | some (.value v) => if v.truthy then some v else none
  | _ => none

/-- `_update_children_info` (smartdevice.py:234-255). -/
def updateChildrenInfo (env : Env) : PyM World Bool := fun w =>
  match childList w.dev.last with
  | none => (.ok false, w)
  | some v =>
    (lift (componentsById (Dict.get? w.dev.last "get_child_device_component_list")) >>= fun comps =>
      lift (reports v) >>= fun rs =>
      createDelete env comps rs >>= fun changed =>
      modifyS (fun w => rs.foldl pushInfo w) >>= fun _ => pure changed) w

/-- `for child in self._children.values(): await child._update()` (smartdevice.py:285-289). -/
def updateKids (env : Env) : PyM World Unit := fun w => forEach (fun id => onKid id (childUpdate env)) (Dict.keys w.kids) w

/-- The part of the first update (smartdevice.py:270-275). -/
def firstPart (env : Env) (t : Rat) : PyM Local Unit := do
  negotiate env
  initModules env
  handlePost t (fun _ => true) "Cloud"

/-- The part of an update that concerns the device itself (smartdevice.py:266-277). -/
def ownUpdate (env : Env) : PyM Local Unit := do
  let l ← getS
  let t ← now env
  modifyDev fun d => { d with time := some t }
  if l.dev.time.isNone then firstPart env t else pure ()
  modularUpdate env l.dev.time.isNone t

/-- Whether the children are updated (smartdevice.py:285). -/
def updateKidsIf (env : Env) (go : Bool) : PyM World Unit := fun w =>
  if go || !isHub w.dev then updateKids env w else (.ok (), w)

/-- `update` (smartdevice.py:261-298). -/
def update (env : Env) (credentials updateChildren : Bool) : PyM World Unit := do
  if !credentials then raise (.auth none) else pure ()
  onDev (ownUpdate env)
  let changed ← updateChildrenInfo env
  updateKidsIf env (changed || updateChildren)
  onDev initFeatures

/-- A device before its first update. -/
def newDev : Dev := ⟨0, none, none, [], .unknown, .obj [], [], [], none, [], false⟩
def newWorld : World := ⟨newDev, [], ⟨[], 0⟩, 1⟩

end Kasa.SmartDevice
