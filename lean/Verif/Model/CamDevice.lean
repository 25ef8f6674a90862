import Verif.Model.SmartDevice
/-!
# Updating a camera or camera hub and its children (smartcam/smartcamdevice.py, smartcam/smartcamchild.py)

A camera is updated by `SmartDevice.update`; this models what `SmartCamDevice` overrides.  The children of a camera hub are SMART
devices or cameras, by the category that is reported for them.
-/

namespace Kasa.CamDevice

open Smart (Entry)
open PyM
open SmartDevice

/-- The surroundings and the registered modules of cameras, in order (`SmartCamModule.REGISTERED_MODULES`). -/
structure CamEnv where
  base : Env
  classes : List Cls

/-! ## Info and components -/

/-- `_map_info(device_info)` (smartcamdevice.py:224-235). -/
def mapInfo (deviceInfo : Json) : Except Exc Json := do
  match (← Ops.item deviceInfo "basic_info") with
  | .obj ps => pure (.obj (DeviceInfo.mapInfo ps))
  | _ => .error (.other "AttributeError")

/-- `_update_internal_info` (smartcamdevice.py:67-70). -/
def infoFrom (resp : Answers) : Except Exc Json := do
  mapInfo (← Ops.item (← tryGet resp "getDeviceInfo") "device_info")

/-- The names that a child that is a camera renames (smartcamchild.py:66-70). -/
def childKey (k : String) : String :=
  if k = "device_model" then "model" else if k = "sw_ver" then "fw_ver" else if k = "hw_id" then "hwId" else k

/-- `_map_child_info_from_parent` (smartcamchild.py:64-71). -/
def mapChildInfo : Json → Json
  | .obj ps => .obj (ps.foldl (fun d p => Dict.set d (childKey p.1) p.2) [])
  | j => j

/-- One component (smartcamdevice.py:188-193); simplified: `TypeError` unless the name is a string and the version a number. -/
def parseComponent (c : Json) : Except Exc (String × Int) := do
  match (← Ops.item c "name"), (← Ops.item c "version") with
  | .str i, .num v => pure (i, v)
  | _, _ => .error (.other "TypeError")

def parseComponents : List Json → Except Exc (List (String × Int))
  | [] => .ok []
  | c :: cs => do
    let p ← parseComponent c
    let rest ← parseComponents cs
    pure (p :: rest)

/-- `_parse_components` (smartcamdevice.py:194-199), a dict; `key` is where the list is: `app_component_list`, or for a child
`component_list`, which is renamed (smartcamdevice.py:129-131). -/
def componentsOf (key : String) (raw : Json) : Except Exc (List (String × Int)) := do
  let cs ← DeviceInfo.items (← Ops.item raw key)
  let ps ← parseComponents cs
  pure (Dict.update [] ps)

/-- `resp["getAppComponentList"]["app_component"]`, parsed. -/
def negotiated (resp : Answers) : Except Exc (List (String × Int)) :=
  match Dict.get? resp "getAppComponentList" with
  | none => .error (.other "KeyError")
  | some (.error _) => .error (.other "TypeError")
  | some (.value v) => do componentsOf "app_component_list" (← Ops.item v "app_component")

/-! ## The device itself -/

/-- The first query (smartcamdevice.py:201-205). -/
def initialQuery : Request :=
  [("getDeviceInfo", .obj [("device_info", .obj [("name", .arr [.str "basic_info", .str "info"])])]),
   ("getAppComponentList", .obj [("app_component", .obj [("name", .str "app_component_list")])]),
   ("getConnectionType", .obj [("network", .obj [("get_connection_type", .obj [])])])]

/-- The query for the children (smartcamdevice.py:143-146). -/
def childQuery : Request :=
  [("getChildDeviceList", .obj [("childControl", .obj [("start_index", .num 0)])]),
   ("getChildDeviceComponentList", .obj [("childControl", .obj [("start_index", .num 0)])])]

/-- `_initialize_children` (smartcamdevice.py:141-148) if the device controls children (smartcamdevice.py:214-215). -/
def queryChildren (c : CamEnv) : PyM Local Unit := fun l =>
  if Dict.has l.dev.comps "childControl" then
    (ask c.base childQuery >>= fun r => modifyDev fun d => { d with last := Dict.update d.last r }) l
  else (.ok (), l)

/-- The type a kind is made from. -/
def typeOf (info : Json) : Option String :=
  match info.get? "device_type" with
  | some (.str s) => some s
  | _ => none

def setComps (cs : List (String × Int)) (d : Dev) : Dev :=
  { d with comps := cs, kind := DeviceInfo.cameraDeviceType d.kind d.info.truthy (typeOf d.info) }

/-- `_negotiate` (smartcamdevice.py:201-222); the kind, which is remembered when first asked for (smartcamdevice.py:253-258), is
determined here. -/
def negotiate (c : CamEnv) : PyM Local Unit := do
  let resp ← ask c.base initialQuery
  modifyDev fun d => { d with last := Dict.update d.last resp }
  let info ← lift (infoFrom resp)
  modifyDev fun d => { d with info := info }
  let cs ← lift (negotiated resp)
  modifyDev (setComps cs)
  queryChildren c

/-- The loop of `_initialize_modules` (smartcamdevice.py:166-177). -/
def addModule (m : Cls) : PyM Local Unit := fun l =>
  if m.component ≠ "" && !Dict.has l.dev.comps m.component then (.ok (), l) else addSupported m l

/-- `_initialize_modules` (smartcamdevice.py:166-177). -/
def initModules (c : CamEnv) : PyM Local Unit := forEach addModule c.classes

/-- `_initialize_features` (smartcamdevice.py:179-184), if there are none yet (smartdevice.py:293-294, smartchilddevice.py:114-115). -/
def initFeatures : PyM Local Unit := fun l =>
  if l.dev.feats.isEmpty then forEach moduleFeatures (Dict.keys l.dev.mods) l else (.ok (), l)

/-- `_update_internal_info(info_resp)` (smartdevice.py:355-357, smartcamdevice.py:67-70). -/
def takeInfo (first : Bool) (resp : Answers) : PyM Local Unit := fun l =>
  match infoFrom (if first then l.dev.last else resp) with
  | .ok i => (.ok (), { l with dev := { l.dev with info := i } })
  | .error e => (.error e, l)

/-- `_modular_update` (smartdevice.py:321-365). -/
def modularUpdate (c : CamEnv) (first : Bool) (t : Rat) : PyM Local Unit := do
  let l ← getS
  modifyDev (markPreloaded first t)
  let resp ← askModules c.base (requestOf first t l.dev)
  modifyDev fun d => { d with last := Dict.update d.last resp }
  takeInfo first resp
  postAll t (fun n => (dueNames first t l.dev).contains n)

/-- The part of the first update (smartdevice.py:270-275). -/
def firstPart (c : CamEnv) (t : Rat) : PyM Local Unit := do
  negotiate c
  initModules c
  handlePost t (fun _ => true) "Cloud"

/-- The part of an update that concerns the device itself (smartdevice.py:266-277). -/
def ownUpdate (c : CamEnv) : PyM Local Unit := do
  let l ← getS
  let t ← now c.base
  modifyDev fun d => { d with time := some t }
  if l.dev.time.isNone then firstPart c t else pure ()
  modularUpdate c l.dev.time.isNone t

/-! ## Children -/

/-- The categories of SMART children (smartchilddevice.py:25-36). -/
def smartCategories : List String :=
  ["plug.powerstrip.sub-plug", "subg.plugswitch.switch", "subg.trigger.contact-sensor", "subg.trigger.temp-hmdt-sensor",
   "subg.trigger.water-leak-sensor", "subg.trigger.motion-sensor", "kasa.switch.outlet.sub-fan", "kasa.switch.outlet.sub-dimmer",
   "subg.trv", "subg.trigger.button"]

/-- The categories of children that are cameras (smartcamchild.py:32-34). -/
def camCategories : List String := ["camera"]

/-- `info.get("category")`; simplified: one that is not a string counts as unknown. -/
def categoryOf (info : Json) : Option String :=
  match info.get? "category" with
  | some (.str s) => some s
  | _ => none

/-- The query that a SMART child is asked first (smartcamdevice.py:112-114). -/
def cloudQuery : Request := [("get_connect_cloud_state", .null)]

/-- `child_protocol.query(...)` with its handler (smartcamdevice.py:111-117): an exception is logged, and the variable that is read
next has no value. -/
def askFirst (c : CamEnv) (id : String) : PyM World Answers := fun w =>
  let net := { w.net with asked := w.net.asked ++ [(some id, cloudQuery)] }
  match c.base.answer w.net.asked.length (some id) cloudQuery with
  | .ok r => (.ok r, { w with net := net })
  | .error e => (.error (if e.isException then .other "UnboundLocalError" else e), { w with net := net })

/-- `SmartChildDevice.create` with a last update (smartchilddevice.py:117-140). -/
def createSmart (c : CamEnv) (id : String) (info raw : Json) (last : Answers) : PyM World Dev := fun w =>
  match SmartDevice.componentsOf raw with
  | .error e => (.error e, w)
  | .ok cs =>
    let out := SmartDevice.initModules c.base ⟨{ newChild w.born id (isHub w.dev) info cs with last := last }, some w.dev.last, w.net⟩
    match out.1 with
    | .error e => (.error e, { w with net := out.2.net, born := w.born + 1 })
    | .ok _ => (.ok out.2.dev, { w with net := out.2.net, born := w.born + 1 })

/-- `_initialize_smart_child` (smartcamdevice.py:102-121). -/
def smartChild (c : CamEnv) (id : String) (info raw : Json) : PyM World Dev := askFirst c id >>= createSmart c id info raw

/-- `_initialize_smartcam_child` (smartcamdevice.py:127-139, smartcamchild.py:36-50). -/
def camChild (c : CamEnv) (id : String) (info raw : Json) : PyM World Dev := fun w =>
  match componentsOf "component_list" raw with
  | .error e => (.error e, w)
  | .ok cs =>
    let out := initModules c ⟨{ newChild w.born id (isHub w.dev) (mapChildInfo info) cs with cam := true }, some w.dev.last, w.net⟩
    match out.1 with
    | .error e => (.error e, { w with net := out.2.net, born := w.born + 1 })
    | .ok _ => (.ok out.2.dev, { w with net := out.2.net, born := w.born + 1 })

/-- `_try_create_child` (smartcamdevice.py:150-164). -/
def tryCreate (c : CamEnv) (id : String) (info raw : Json) : PyM World (Option Dev) :=
  match categoryOf info with
  | none => pure none
  | some cat =>
    if smartCategories.contains cat then smartChild c id info raw >>= fun d => pure (some d)
    else if camCategories.contains cat then camChild c id info raw >>= fun d => pure (some d)
    else pure none

/-- What is done with a child that was created, or not. -/
def keepChild (id : String) : Option Dev → PyM World Bool
  | none => pure false
  | some d => modifyS (fun w => { w with kids := Dict.set w.kids id d }) >>= fun _ => pure true

/-- One entry of the list of children (smartdevice.py:120-151); `existing` are the ids at the start.  Gives whether a child was
created. -/
def considerChild (c : CamEnv) (existing : List String) (comps : List (String × Json)) (r : Option String × Json) : PyM World Bool := fun w =>
  match r.1 with
  | none => (.ok false, w)
  | some id =>
    match Dict.get? comps id with
    | none => (.ok false, w)
    | some raw => if existing.contains id then (.ok false, w) else (tryCreate c id r.2 raw >>= keepChild id) w

/-- `_create_delete_children` (smartdevice.py:100-168). -/
def createDelete (c : CamEnv) (comps : List (String × Json)) (rs : List (Option String × Json)) : PyM World Bool := fun w =>
  let existing := Dict.keys w.kids
  let removed := existing.filter (fun id => !(presentIds comps rs).contains id)
  (foldM (fun changed r => considerChild c existing comps r >>= fun b => pure (changed || b)) false rs >>= fun changed =>
    modifyS (fun w => { w with kids := removed.foldl (fun k id => Dict.erase k id) w.kids }) >>= fun _ =>
    pure (changed || !removed.isEmpty)) w

/-- `_update_internal_state` of a child (smartdevice.py:687-692, smartcamchild.py:73-85). -/
def stateOf (d : Dev) (info : Json) : Json := if d.cam then mapChildInfo info else info

/-- `self._children[child_id]._update_internal_state(info)` (smartcamdevice.py:94-100). -/
def pushInfo (w : World) (r : Option String × Json) : World :=
  match r.1 with
  | none => w
  | some id =>
    match Dict.get? w.kids id with
    | none => w
    | some d => { w with kids := Dict.set w.kids id { d with info := stateOf d r.2 } }

/-- `_try_get_response(self._last_update, "getChildDeviceList", {})`, if not empty. -/
def childList (last : Answers) : Option Json :=
  match Dict.get? last "getChildDeviceList" with
  | some (.value v) => if v.truthy then some v else none
  | _ => none

/-- `_update_children_info` (smartcamdevice.py:80-102). -/
def updateChildrenInfo (c : CamEnv) : PyM World Bool := fun w =>
  match childList w.dev.last with
  | none => (.ok false, w)
  | some v =>
    (lift (componentsById (Dict.get? w.dev.last "getChildDeviceComponentList")) >>= fun comps =>
      lift (reports v) >>= fun rs =>
      createDelete c comps rs >>= fun changed =>
      modifyS (fun w => rs.foldl pushInfo w) >>= fun _ => pure changed) w

/-- `SmartChildDevice._update` of a child that is a camera (smartchilddevice.py:79-115). -/
def camChildUpdate (c : CamEnv) : PyM Local Unit := do
  let t ← now c.base
  let l ← getS
  childQueryModules c.base (requestOf false t l.dev)
  postAll t (fun n => (dueNames false t l.dev).contains n)
  modifyDev fun d => { d with time := some t }
  initFeatures

/-- `child._update()` (smartchilddevice.py:79-115). -/
def childUpdate (c : CamEnv) : PyM Local Unit := fun l =>
  if l.dev.cam then camChildUpdate c l else SmartDevice.childUpdate c.base l

/-- Whether the children are updated (smartdevice.py:285-289). -/
def updateKidsIf (c : CamEnv) (go : Bool) : PyM World Unit := fun w =>
  if go || !isHub w.dev then forEach (fun id => onKid id (childUpdate c)) (Dict.keys w.kids) w else (.ok (), w)

/-- `update` (smartdevice.py:261-298). -/
def update (c : CamEnv) (credentials updateChildren : Bool) : PyM World Unit := do
  if !credentials then raise (.auth none) else pure ()
  onDev (ownUpdate c)
  let changed ← updateChildrenInfo c
  updateKidsIf c (changed || updateChildren)
  onDev initFeatures

end Kasa.CamDevice
