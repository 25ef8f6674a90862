import Verif.Model.IotDevice
import Verif.Model.DeviceInfo
import Verif.Model.Strip
import Verif.Model.Motion
/-!
# Readings of legacy devices before and after the first update (iot/iotdevice.py, iot/iotplug.py, iot/iotstrip.py)
-/

namespace Kasa.IotReadings
open Ops

abbrev Info := List (String × Json)

/-- A legacy device object: what updates depend on, `_discovery_info`, the sockets if it is a strip, and the requests it has sent. -/
structure Obj where
  dev : Iot.Dev
  discovery : Option Info
  plugs : List Strip.Plug
  sent : List Json

/-- A new object (device.py:230-245, iotdevice.py:184-200): `_last_update` is `{}`, `_sys_info` is `None`. -/
def new (budget : Nat) : Obj := ⟨⟨[], .null, [], none, budget⟩, none, [], []⟩

/-! ## Where the information comes from -/

/-- `_set_sys_info` (iotdevice.py:459-463); the parsed features are `legacyFeatures` below, here they must only be text. -/
def setSysInfo (sys : Json) : PyM Obj Unit := do
  PyM.modifyS fun o => { o with dev := { o.dev with sysInfo := sys } }
  let f ← PyM.lift (getOpt sys "feature")
  PyM.lift (Iot.checkFeatures (orNone f))

/-- `info["system"].get("get_sysinfo")` if `"system" in info` (iotdevice.py:448), `None` otherwise. -/
def sysInfoIn (info : Info) : Except Exc Json :=
  match Dict.get? info "system" with
  | none => .ok .null
  | some system => do pure (orNone (← getOpt system "get_sysinfo"))

/-- `update_from_discover_info` (iotdevice.py:445-457). -/
def found (info : Info) : PyM Obj Unit := do
  PyM.modifyS fun o => { o with discovery := some info }
  let sys ← PyM.lift (sysInfoIn info)
  if sys.truthy then do
    PyM.modifyS fun o => { o with dev := { o.dev with lastUpdate := info } }
    setSysInfo sys
  else do
    let model ← PyM.lift (do DeviceInfo.text (← item (.obj info) "device_model"))
    setSysInfo (.obj (Dict.set info "model" (.str (String.ofList (DeviceInfo.splitAt '(' model.toList).1))))

/-- `IotDevice.update` (iotdevice.py:302-329), as `Iot.update` models it. -/
def update (env : Iot.Env) : PyM Obj Unit := fun o =>
  let out := Iot.update env ⟨o.dev, o.sent⟩
  (out.1, { o with dev := out.2.dev, sent := out.2.sent })

/-! ## Readings -/

/-- `requires_update` (iotdevice.py:39-64) around a method called `name`. -/
def guarded {α : Type} (o : Obj) (name : String) (f : Except Exc α) : Except Exc α :=
  if o.dev.lastUpdate.isEmpty then
    match o.dev.sysInfo with
    | .null => .error .kasa
    | sys => do if (← contains sys name) then f else .error .kasa
  else f

/-- `sys_info` (iotdevice.py:465-474). -/
def sysInfo (o : Obj) : Except Exc Json := guarded o "sys_info" (.ok o.dev.sysInfo)

/-- `modules` (iotdevice.py:207-213): `none` is Python's `None`. -/
def modules (o : Obj) : Except Exc (Option (List Iot.Mod)) := guarded o "modules" (.ok o.dev.supported)

/-- `model` (iotdevice.py:476-482, device.py:341-344). -/
def model (lower : String → String) (o : Obj) : Except Exc Json :=
  guarded o "model"
    (if o.dev.lastUpdate.isEmpty then item o.dev.sysInfo "model"
     else do
      let auth := match o.discovery with | some d => Dict.has d "mgt_encrypt_schm" | none => false
      pure (.str (← DeviceInfo.iotInfo lower (.obj o.dev.lastUpdate) auth).shortName))

/-- `alias` (iotdevice.py:484-488). -/
def alias (o : Obj) : Except Exc Json := if o.dev.sysInfo.truthy then do pure (orNone (← getOpt o.dev.sysInfo "alias")) else .ok .null

/-- The keys of `hw_info` (iotdevice.py:527-538). -/
def hwKeys : List String := ["sw_ver", "hw_ver", "mac", "mic_mac", "type", "mic_type", "hwId", "fwId", "oemId", "dev_name"]

/-- `hw_info` (iotdevice.py:520-540).  Simplified: a `_sys_info` that is no dict raises. -/
def hwInfo (o : Obj) : Except Exc Info :=
  guarded o "hw_info" (match o.dev.sysInfo with
    | .obj kvs => .ok (hwKeys.filterMap fun k => (Dict.get? kvs k).map fun v => (k, v))
    | _ => .error (.other "TypeError"))

/-- A coordinate: as reported, or divided by 10000. -/
inductive Coordinate where
  | reported (v : Json)
  | ratio (q : Rat)
  deriving DecidableEq

/-- `x / 10000`. -/
def divided : Json → Except Exc Coordinate
  | .num n => .ok (.ratio ((n : Rat) / 10000))
  | .bool b => .ok (.ratio ((if b then 1 else 0) / 10000))
  | _ => .error (.other "TypeError")

/-- `location` (iotdevice.py:542-558): latitude and longitude.  Simplified: a `_sys_info` that is no dict raises. -/
def location (o : Obj) : Except Exc (Coordinate × Coordinate) :=
  guarded o "location" (match o.dev.sysInfo with
    | .obj kvs =>
      match Dict.get? kvs "latitude", Dict.get? kvs "longitude" with
      | some a, some b => .ok (.reported a, .reported b)
      | _, _ =>
        match Dict.get? kvs "latitude_i", Dict.get? kvs "longitude_i" with
        | some a, some b => do
          let a ← divided a
          let b ← divided b
          pure (a, b)
        | _, _ => .ok (.reported .null, .reported .null)
    | _ => .error (.other "TypeError"))

/-- `rssi` (iotdevice.py:560-565); `int(..)` of a text is not modelled beyond that it may raise. -/
def rssi (o : Obj) : Except Exc (Option Int) :=
  guarded o "rssi" (do
    match orNone (← getOpt o.dev.sysInfo "rssi") with
    | .null => pure none
    | v => do pure (some (← Motion.toInt v)))

/-- `mac` (iotdevice.py:567-585). -/
def mac (o : Obj) : Except Exc String :=
  guarded o "mac" (match o.dev.sysInfo with
    | .obj kvs => DeviceInfo.iotMac kvs
    | _ => .error (.other "AttributeError"))

/-- `device_id` (iotdevice.py:651-659). -/
def deviceId (o : Obj) : Except Exc String := guarded o "device_id" (mac o)

/-- `time` and `timezone` (iotdevice.py:494-504): `self.modules[Module.Time]`, read by `f`.  A module's key is not the target of its
queries; which module it is is left to `isTime`. -/
def time {α : Type} (isTime : Iot.Mod → Bool) (f : Iot.Mod → Except Exc α) (name : String) (o : Obj) : Except Exc α :=
  guarded o name (do
    match (← modules o) with
    | none => .error (.other "TypeError")
    | some ms =>
      match ms.find? isTime with
      | some m => f m
      | none => .error (.other "KeyError"))

/-- `IotPlug.is_on` (iotplug.py:68-73). -/
def isOn (o : Obj) : Except Exc Bool :=
  guarded o "is_on" (do
    let sys ← sysInfo o
    pure (← item sys "relay_state").truthy)

/-- `IotStrip.is_on` (iotstrip.py:118-122): the sockets read the system information of the strip. -/
def stripIsOn (o : Obj) : Except Exc Bool :=
  guarded o "is_on" (match o.plugs with
    | [] => .ok false
    | ps => do Strip.isOn (← sysInfo o) ps)

/-- `IotStrip.turn_on` and `IotStrip.turn_off` (iotstrip.py:162-174), which are not guarded. -/
def stripSwitch (env : Strip.Env) (on : Bool) (o : Obj) : Except Exc Unit × List Json := Strip.switchAll env on o.plugs o.sent

/-! ## Features -/

/-- `_parse_features` (iotdevice.py:67-70): the parts between colons. -/
def parse (s : String) : List String := (DeviceInfo.splitAll ':' s.toList).map String.ofList

/-- What `_set_sys_info` makes of `_legacy_features` (iotdevice.py:462-463). -/
def legacyFeatures (before : List String) (sys : Info) : List String :=
  match Dict.get? sys "feature" with
  | some (.str s) => if s.isEmpty then before else parse s
  | _ => before

/-- `has_emeter` (iotdevice.py:292-296), after `_set_sys_info` has been called with these. -/
def hasEmeter (reports : List Info) : Bool := (reports.foldl legacyFeatures []).contains "ENE"

end Kasa.IotReadings
