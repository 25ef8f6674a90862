import Verif.Model.Names
import Verif.Model.DeviceInfo
/-!
# What newer devices show of themselves (smart/smartdevice.py)
-/

namespace Kasa.SmartReadings

/-- `_info`: a dict (smart/smartdevice.py:77). -/
abbrev Info := List (String × Json)

/-- What a device object learns: from a discovery answer, from an answer to `get_device_info`, or from its hub. -/
inductive Event where
  | discovered (info : Info)
  | updated (info : Info)
  | pushed (info : Info)

/-- `update_from_discover_info`, `_update_internal_info`, `_update_internal_state` (smart/smartdevice.py:729-735, 257-259, 687-692):
each replaces `_info`. -/
def hear (_ : Info) : Event → Info
  | .discovered info => info
  | .updated info => info
  | .pushed info => info

/-- `self._info.get(k)`. -/
def get (info : Info) (k : String) : Json := (Dict.get? info k).getD .null

/-- `hw_info` (smart/smartdevice.py:644-655). -/
def hwInfo (info : Info) : Except Exc Info := do
  let name ← Names.alias info
  pure [("sw_ver", get info "fw_ver"), ("hw_ver", get info "hw_ver"), ("mac", get info "mac"), ("type", get info "type"),
    ("hwId", get info "device_id"), ("dev_name", match name with | some s => .str s | none => .null), ("oemId", get info "oem_id")]

/-- `self._info.get(k, 0) / 10_000`. -/
def coordinate (info : Info) (k : String) : Except Exc Rat :=
  match (Dict.get? info k).getD (.num 0) with
  | .num n => .ok ((n : Rat) / 10000)
  | .bool b => .ok ((if b then 1 else 0) / 10000)
  | _ => .error (.other "TypeError")

/-- `location` (smart/smartdevice.py:657-664): latitude and longitude. -/
def location (info : Info) : Except Exc (Rat × Rat) := do
  let lat ← coordinate info "latitude"
  let lon ← coordinate info "longitude"
  pure (lat, lon)

/-- `rssi` (smart/smartdevice.py:666-670).  Simplified: every text raises. -/
def rssi (info : Info) : Except Exc (Option Int) :=
  let v := get info "rssi"
  if v.truthy then
    match v with
    | .num n => .ok (some n)
    | .bool b => .ok (some (if b then 1 else 0))
    | .str _ => .error (.other "ValueError")
    | _ => .error (.other "TypeError")
  else .ok none

/-- `device_id` (smart/smartdevice.py:677-680); `str()` of anything but a string or nothing is not modelled. -/
def deviceId (info : Info) : Option String :=
  match get info "device_id" with
  | .str s => some s
  | .null => some "None"
  | _ => none

/-- `is_on` (smart/smartdevice.py:709-712). -/
def isOn (info : Info) : Bool := (get info "device_on").truthy

end Kasa.SmartReadings
