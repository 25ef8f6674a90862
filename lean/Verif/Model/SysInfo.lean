import Verif.Py.Ops
/-!
# Legacy system information (iot/iotdevice.py, device_factory.py)
-/

namespace Kasa.SysInfo

open Ops

/-- `DeviceType` (device_type.py:8-27). -/
inductive DeviceType where
  | plug | bulb | strip | camera | wallSwitch | stripSocket | dimmer | lightStrip | sensor | hub | fan | thermostat
  | vacuum | chime | doorbell | unknown
  deriving DecidableEq, Repr

/-- The legacy device classes. -/
inductive IotClass where
  | bulb | plug | dimmer | strip | wallSwitch | lightStrip
  deriving DecidableEq, Repr

def isDict : Json → Bool
  | .obj _ => true
  | _ => false

/-- `_extract_sys_info` (iotdevice.py:73-80). -/
def extract (info : Json) : Except Exc Json := do
  let system ← getOr info "system" (.obj [])
  let sysinfoDefault ← getOr system "get_sysinfo" (.obj [])
  let sysinfoNest ← getOr sysinfoDefault "system" (.obj [])
  let a ← len sysinfoNest
  let b ← len sysinfoDefault
  pure (if b < a && isDict sysinfoNest then sysinfoNest else sysinfoDefault)

section
variable (lower : String → String)

/-- `if "dev_name" in sysinfo and "Dimmer" in sysinfo["dev_name"]` (iotdevice.py:726). -/
def isDimmer (sysinfo : Json) : Except Exc Bool := do
  if (← contains sysinfo "dev_name") then contains (← item sysinfo "dev_name") "Dimmer" else pure false

/-- `if (dev_name := sysinfo.get("dev_name")) and "light" in dev_name.lower()` (iotdevice.py:732). -/
def isLightSwitch (sysinfo : Json) : Except Exc Bool := do
  let devName := orNone (← getOpt sysinfo "dev_name")
  if devName.truthy then lowerHas lower "light" devName else pure false

/-- The plug branch (iotdevice.py:729-734). -/
def plugKind (sysinfo : Json) : Except Exc DeviceType := do
  if (← contains sysinfo "children") then pure .strip
  else if (← isLightSwitch lower sysinfo) then pure .wallSwitch
  else pure .plug

/-- The bulb branch (iotdevice.py:736-740). -/
def bulbKind (sysinfo : Json) : Except Exc DeviceType := do
  if (← contains sysinfo "length") then pure .lightStrip else pure .bulb

/-- The decision by the type string (iotdevice.py:726-743). -/
def kindOf (sysinfo type : Json) : Except Exc DeviceType := do
  if (← isDimmer sysinfo) then pure .dimmer
  else if (← lowerHas lower "smartplug" type) then plugKind lower sysinfo
  else if (← lowerHas lower "smartbulb" type) then bulbKind sysinfo
  else pure .plug

/-- `sysinfo.get("type", sysinfo.get("mic_type"))` (iotdevice.py:722). -/
def typeOf (sysinfo : Json) : Except Exc Json := do
  getOr sysinfo "type" (orNone (← getOpt sysinfo "mic_type"))

/-- The check for the two keys (iotdevice.py:718-719). -/
def hasSysInfo (info : Json) : Except Exc Bool := do
  if (← contains info "system") then contains (← item info "system") "get_sysinfo" else pure false

/-- The rest after the checks (iotdevice.py:721-743). -/
def kindOfInfo (info : Json) : Except Exc DeviceType := do
  let sysinfo ← extract info
  let type ← typeOf sysinfo
  if type = .null then .error .kasa else kindOf lower sysinfo type

/-- `IotDevice._get_device_type_from_sys_info` (iotdevice.py:712-743). -/
def deviceType (info : Json) : Except Exc DeviceType := do
  let system ← getOr info "system" (.obj [])
  let sysinfo ← getOr system "get_sysinfo" (.obj [])
  if (← contains sysinfo "system") then pure .camera
  else if (← hasSysInfo info) then kindOfInfo lower info
  else .error .kasa

/-- `TYPE_TO_CLASS` (device_factory.py:135-144): cameras are not in it. -/
def typeToClass : DeviceType → Except Exc IotClass
  | .bulb => .ok .bulb
  | .plug => .ok .plug
  | .dimmer => .ok .dimmer
  | .strip => .ok .strip
  | .wallSwitch => .ok .wallSwitch
  | .lightStrip => .ok .lightStrip
  | _ => .error (.other "KeyError")

/-- `get_device_class_from_sys_info` (device_factory.py:133-145). -/
def classOf (info : Json) : Except Exc IotClass := do
  typeToClass (← deviceType lower info)
end

end Kasa.SysInfo
