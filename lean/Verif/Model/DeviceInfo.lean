import Verif.Model.SysInfo
/-!
# What a device is: kind, model, region and versions (smart/smartdevice.py, smart/smartchilddevice.py, smartcam/smartcamdevice.py,
iot/iotdevice.py)
-/

namespace Kasa.DeviceInfo

open Ops SysInfo

/-! ## Kinds -/

/-- The part for plugs (smartdevice.py:864-867). -/
def plugOrStrip (has : String → Bool) : DeviceType := if has "child_device" then .strip else .plug

/-- `_get_device_type_from_components` (smartdevice.py:857-887); `has` is membership in the list of components. -/
def smartKind (has : String → Bool) (type : String) : DeviceType :=
  if hasText "HUB" type then .hub
  else if hasText "PLUG" type then plugOrStrip has
  else if has "light_strip" then .lightStrip
  else if hasText "SWITCH" type && has "child_device" then .wallSwitch
  else if has "dimmer_calibration" then .dimmer
  else if has "brightness" then .bulb
  else if hasText "SWITCH" type then .wallSwitch
  else if hasText "SENSOR" type then .sensor
  else if hasText "ENERGY" type then .thermostat
  else if hasText "ROBOVAC" type then .vacuum
  else if hasText "TAPOCHIME" type then .chime
  else .plug

/-- `device_type` of a device (smartdevice.py:838-855): `known` is the remembered kind, which the result replaces.  `type` is
`self._info.get("type", self._info.get("device_type"))`. -/
def smartDeviceType (known : DeviceType) (type : Option String) (components : List String) : DeviceType :=
  if known ≠ .unknown then known
  else
    match type with
    | none => known
    | some t => if t.isEmpty || components.isEmpty then known else smartKind (fun c => components.contains c) t

/-- `CHILD_DEVICE_TYPE_MAP` (smartchilddevice.py:25-36). -/
def childKinds : List (String × DeviceType) := [
  ("plug.powerstrip.sub-plug", .plug),
  ("subg.plugswitch.switch", .wallSwitch),
  ("subg.trigger.contact-sensor", .sensor),
  ("subg.trigger.temp-hmdt-sensor", .sensor),
  ("subg.trigger.water-leak-sensor", .sensor),
  ("subg.trigger.motion-sensor", .sensor),
  ("kasa.switch.outlet.sub-fan", .fan),
  ("kasa.switch.outlet.sub-dimmer", .dimmer),
  ("subg.trv", .thermostat),
  ("subg.trigger.button", .sensor)]

/-- `device_type` of a child (smartchilddevice.py:142-160); `category` is that of its info. -/
def childDeviceType (known : DeviceType) (category : Option String) : DeviceType :=
  if known ≠ .unknown then known
  else
    match category with
    | none => known
    | some c => if c.isEmpty then known else (Dict.get? childKinds c).getD .unknown

/-- `_get_device_type_from_sysinfo` of a camera (smartcamdevice.py:26-38). -/
def cameraKind (type : Option String) : DeviceType :=
  match type with
  | none => .unknown
  | some t =>
    if t.isEmpty then .unknown
    else if "HUB".toList.isSuffixOf t.toList then .hub
    else if hasText "DOORBELL" t then .doorbell
    else .camera

/-- `device_type` of a camera (smartcamdevice.py:252-257). -/
def cameraDeviceType (known : DeviceType) (hasInfo : Bool) (type : Option String) : DeviceType :=
  if known = .unknown && hasInfo then cameraKind type else known

/-! ## Names and versions -/

/-- `s.partition(c)`: what is before the first `c` and, if there is one, what is after it. -/
def splitAt (c : Char) : List Char → List Char × Option (List Char)
  | [] => ([], none)
  | x :: xs => if x = c then ([], some xs) else ((x :: (splitAt c xs).1), (splitAt c xs).2)

/-- `s.replace(c, "")`. -/
def without (c : Char) (s : List Char) : List Char := s.filter (· ≠ c)

/-- `long_name, _, region = device_model.partition("(")` and `region.replace(")", "")` (smartdevice.py:902-904,
iotdevice.py:754-758). -/
def modelAndRegion (s : String) : String × String :=
  let p := splitAt '(' s.toList
  (String.ofList p.1, String.ofList (without ')' (p.2.getD [])))

/-- `fw_version_full.split(" ", maxsplit=1)` (smartdevice.py:915-919, iotdevice.py:762-766, smartcamdevice.py:49-53). -/
def firmware (s : String) : String × Option String :=
  let p := splitAt ' ' s.toList
  (String.ofList p.1, p.2.map String.ofList)

/-- `s.split(c)`. -/
def splitAll (c : Char) : List Char → List (List Char)
  | [] => [[]]
  | x :: xs =>
    if x = c then [] :: splitAll c xs
    else
      match splitAll c xs with
      | [] => [[x]]
      | p :: ps => (x :: p) :: ps

/-- A string value; simplified: anything else raises `TypeError`, whichever operation fails first. -/
def text : Json → Except Exc String
  | .str s => .ok s
  | _ => .error (.other "TypeError")

/-- `DeviceInfo` (device.py:153-166). -/
structure DeviceInfo where
  shortName : String
  longName : String
  brand : String
  family : String
  type : DeviceType
  hardware : Json
  firmware : String
  build : Option String
  auth : Bool
  region : Json

/-- `[comp["id"] for comp in ...]` (smartdevice.py:895), the strings of it. -/
def componentIds : List Json → Except Exc (List Json)
  | [] => .ok []
  | c :: cs => do
    let i ← item c "id"
    let is ← componentIds cs
    pure (i :: is)

def items : Json → Except Exc (List Json)
  | .arr xs => .ok xs
  | _ => .error (.other "TypeError")

/-- Long name and region (smartdevice.py:898-908). -/
def smartNames (di : Json) (short : String) (discovery : Option Json) : Except Exc (String × Json) := do
  match discovery with
  | none => pure (short, orNone (← getOpt di "specs"))
  | some d => do
    let mr := modelAndRegion (← text (← item d "device_model"))
    if mr.2.isEmpty then pure (mr.1, orNone (← getOpt di "specs")) else pure (mr.1, .str mr.2)

/-- `_protocol, devicetype = device_family.split(".")` and the brand (smartdevice.py:920-922). -/
def brandOf (lower : String → String) (family : String) : Except Exc String :=
  match splitAll '.' family.toList with
  | [_, d] => .ok (lower (String.ofList (d.take 4)))
  | _ => .error (.other "ValueError")

/-- `SmartDevice._get_device_info` (smartdevice.py:889-935).  `discovery` is `none` for a missing or empty `discovery_info`. -/
def smartInfo (lower : String → String) (info : Json) (discovery : Option Json) : Except Exc DeviceInfo := do
  let di ← item info "get_device_info"
  let nego ← item info "component_nego"
  let components ← componentIds (← items (← item nego "component_list"))
  let short ← text (← item di "model")
  let names ← smartNames di short discovery
  let family ← text (← item di "type")
  let fw := firmware (← text (← item di "fw_ver"))
  let brand ← brandOf lower family
  let hw ← item di "hw_ver"
  pure ⟨short, names.1, brand, family, smartKind (fun c => decide (Json.str c ∈ components)) family, hw, fw.1, fw.2, true, names.2⟩

/-- `IotDevice._get_device_info` (iotdevice.py:745-780): `auth` is whether there is discovery info with `mgt_encrypt_schm`. -/
def iotInfo (lower : String → String) (info : Json) (auth : Bool) : Except Exc DeviceInfo := do
  let sys ← extract info
  let mr := modelAndRegion (← text (← item sys "model"))
  let family ← text (← typeOf sys)
  let kind ← deviceType lower info
  let fw := firmware (← text (← item sys "sw_ver"))
  let hw ← item sys "hw_ver"
  pure ⟨mr.1, mr.1, "kasa", family, kind, hw, fw.1, fw.2, auth, .str mr.2⟩

/-- `discovery_info["device_model"] if discovery_info else short_name` (smartcamdevice.py:47). -/
def camLongName (short : String) (discovery : Option Json) : Except Exc String :=
  match discovery with
  | none => .ok short
  | some d => do text (← item d "device_model")

/-- `SmartCamDevice._get_device_info` (smartcamdevice.py:40-65). -/
def camInfo (info : Json) (discovery : Option Json) : Except Exc DeviceInfo := do
  let basic ← item (← item (← item info "getDeviceInfo") "device_info") "basic_info"
  let short ← text (← item basic "device_model")
  let long ← camLongName short discovery
  let fw := firmware (← text (← item basic "sw_version"))
  let family ← text (← item basic "device_type")
  let hw ← item basic "hw_version"
  pure ⟨short, long, "tapo", family, cameraKind (some family), hw, fw.1, fw.2, true, orNone (← getOpt basic "region")⟩

/-- `_map_info` (smartcamdevice.py:224-235): the keys of the other devices. -/
def mappedKey (k : String) : String :=
  (Dict.get? [("device_model", "model"), ("device_alias", "alias"), ("sw_version", "fw_ver"), ("hw_version", "hw_ver"),
    ("hw_id", "hwId"), ("dev_id", "device_id")] k).getD k

/-- `{mappings.get(k, k): v for k, v in basic_info.items()}`. -/
def mapInfo (basic : List (String × Json)) : List (String × Json) :=
  basic.foldl (fun d p => Dict.set d (mappedKey p.1) p.2) []

/-! ## Mac addresses -/

/-- The value of a hexadecimal digit. -/
def hexValue (c : Char) : Option Nat :=
  if '0' ≤ c ∧ c ≤ '9' then some (c.toNat - '0'.toNat)
  else if 'a' ≤ c ∧ c ≤ 'f' then some (c.toNat - 'a'.toNat + 10)
  else if 'A' ≤ c ∧ c ≤ 'F' then some (c.toNat - 'A'.toNat + 10)
  else none

def isSpace (c : Char) : Bool := c = ' ' || c = '\t' || c = '\n' || c = '\r' || c = '\x0b' || c = '\x0c'

/-- `bytes.fromhex`: white space is skipped between bytes. -/
def fromHex : List Char → Except Exc (List Nat)
  | [] => .ok []
  | [c] => if isSpace c then .ok [] else .error (.other "ValueError")
  | a :: b :: rest =>
    if isSpace a then fromHex (b :: rest)
    else
      match hexValue a, hexValue b with
      | some x, some y => (fromHex rest).map ((x * 16 + y) :: ·)
      | _, _ => .error (.other "ValueError")

def hexChar (n : Nat) : Char := ['0', '1', '2', '3', '4', '5', '6', '7', '8', '9', 'a', 'b', 'c', 'd', 'e', 'f'].getD n '0'

/-- `format(s, "02x")`. -/
def hexByte (n : Nat) : List Char := [hexChar (n / 16), hexChar (n % 16)]

/-- `":".join(parts)`. -/
def colons : List (List Char) → List Char
  | [] => []
  | [p] => p
  | p :: q :: r => p ++ ':' :: colons (q :: r)

/-- `mac.replace("-", ":")`. -/
def dashesToColons (s : List Char) : List Char := s.map (fun c => if c = '-' then ':' else c)

/-- Lines 581-584 of iotdevice.py. -/
def formatMac (s : String) : Except Exc String :=
  let m := dashesToColons s.toList
  if m.contains ':' then .ok (String.ofList m)
  else (fromHex m).map (fun bs => String.ofList (colons (bs.map hexByte)))

/-- `mac` of a legacy device (iotdevice.py:569-585). -/
def iotMac (sys : List (String × Json)) : Except Exc String :=
  match (Dict.get? sys "mac").getD (orNone (Dict.get? sys "mic_mac")) with
  | .str s => if s.isEmpty then .error .kasa else formatMac s
  | v => if v.truthy then .error (.other "AttributeError") else .error .kasa

/-- `mac` of the other devices (smartdevice.py:673-675); `str()` of anything but a string or nothing is not modelled. -/
def smartMac (info : List (String × Json)) : Option String :=
  match orNone (Dict.get? info "mac") with
  | .str s => some (String.ofList (dashesToColons s.toList))
  | .null => some "None"
  | _ => none

end Kasa.DeviceInfo
