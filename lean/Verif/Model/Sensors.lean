import Verif.Py.Json
import Verif.Py.Ops
/-!
# What the sensors of newer devices show (smart/modules)

Each reading is given by the id of the feature: which attribute a feature reads, and what the attribute does, are modelled together.
`sys_info` is the device info of the last update.
-/

namespace Kasa.Sensors
open Ops

abbrev Info := List (String × Json)

/-- What a `Time` module gives: its time, in microseconds since 1970, and its zone. -/
structure Clock where
  time : Int
  zone : String
  deriving DecidableEq

/-- A device: its info, its `Time` module if it has one, that of its parent if there is a parent that has one, the clock of the host; its
`Cloud` module if it has one: what `data` gives. -/
structure Dev where
  info : Info
  own : Option (Except Exc Clock)
  parent : Option (Except Exc Clock)
  host : Clock
  cloud : Option (Except Exc Json)

/-- A value: one of the device's own, or a moment. -/
inductive Reading where
  | json (v : Json)
  | moment (t : Int) (zone : String)
  deriving DecidableEq

/-- `sys_info[key]`. -/
def reported (d : Dev) (key : String) : Except Exc Reading := do pure (.json (← item (.obj d.info) key))

/-- `x != 0` in Python, where `False == 0`. -/
def nonzero : Json → Bool
  | .num n => decide (n ≠ 0)
  | .bool b => b
  | _ => true

/-- A number of seconds; other values raise. -/
def seconds : Json → Except Exc Int
  | .num n => .ok n
  | .bool b => .ok (if b then 1 else 0)
  | _ => .error (.other "TypeError")

/-- `time` (smartdevice.py:604-613). -/
def time (d : Dev) : Except Exc Clock :=
  match d.own with
  | some c => c
  | none =>
    match d.parent with
    | some c => c
    | none => .ok { d.host with time := d.host.time / 1000000 * 1000000 }

/-- `temperature_warning` (temperaturesensor.py:67-70). -/
def temperatureWarning (d : Dev) : Except Exc Reading := .ok (.json (.bool (nonzero ((Dict.get? d.info "current_temp_exception").getD (.num 0)))))

/-- `humidity_warning` (humiditysensor.py:52-55). -/
def humidityWarning (d : Dev) : Except Exc Reading := do
  let v ← item (.obj d.info) "current_humidity_exception"
  pure (.json (.bool (nonzero v)))

/-- `battery_low` (batterysensor.py:63-72). -/
def batteryLow (d : Dev) : Except Exc Reading :=
  match (Dict.get? d.info "at_low_battery").getD ((Dict.get? d.info "is_low").getD .null) with
  | .null => .error .kasa
  | v => .ok (.json v)

/-- `overheated` (overheatprotection.py:29-37). -/
def overheated (d : Dev) : Except Exc Reading :=
  match (Dict.get? d.info "overheat_status").getD .null with
  | .null => reported d "overheated"
  | v => .ok (.json (.bool (decide (v ≠ .str "normal"))))

/-- `WaterleakStatus` (waterleaksensor.py:12-17): the values of its members. -/
def leakStates : List Json := [.str "normal", .str "water_leak", .str "water_dry"]

/-- `status` (waterleaksensor.py:69-72): a member is given by its value. -/
def waterLeak (d : Dev) : Except Exc Reading := do
  let v ← item (.obj d.info) "water_leak_status"
  if v ∈ leakStates then pure (.json v) else .error (.other "ValueError")

/-- `alert_timestamp` (waterleaksensor.py:79-88).  Simplified: no moment is out of the range of `datetime`. -/
def alertTimestamp (d : Dev) : Except Exc Reading :=
  match Dict.get? d.info "trigger_timestamp" with
  | none => .ok (.json .null)
  | some v =>
    match d.own with
    | none => .error (.other "KeyError")
    | some c => do
      let clock ← c
      let s ← seconds v
      pure (.moment (s * 1000000) clock.zone)

/-- `is_timer_active` (autooff.py:84-87). -/
def timerActive (d : Dev) : Except Exc Bool := do
  let v ← item (.obj d.info) "auto_off_status"
  pure (decide (v = .str "on"))

/-- `auto_off_at` (autooff.py:89-97).  Simplified as `alertTimestamp`. -/
def autoOffAt (d : Dev) : Except Exc Reading := do
  if ← timerActive d then do
    let now ← time d
    let v ← item (.obj d.info) "auto_off_remain_time"
    let s ← seconds v
    pure (.moment (now.time + s * 1000000) now.zone)
  else pure (.json .null)

/-- `overloaded` (powerprotection.py:49-55). -/
def overloaded (d : Dev) : Except Exc Reading := do
  let v ← item (.obj d.info) "power_protection_status"
  pure (.json (.bool (decide (v = .str "overloaded"))))

/-- `DeviceError` and its subclasses (exceptions.py:38-59). -/
def isDeviceError : Exc → Bool
  | .device _ | .auth _ | .retryable _ => true
  | _ => false

/-- `is_connected` (smart/modules/cloud.py:31-36) with `_has_data_error` (smartmodule.py:258-263); `data` is what reading the data of the module
gives. -/
def connected (data : Except Exc Json) : Except Exc Bool :=
  match data with
  | .error e => if isDeviceError e then .ok false else .error e
  | .ok x =>
    if x.truthy then do
      let v ← item x "status"
      pure (!nonzero v)
    else .error (.other "AssertionError")

/-- `is_cloud_connected` (smartdevice.py:573-578). -/
def cloudConnected (d : Dev) : Except Exc Bool :=
  match d.cloud with
  | none => .ok false
  | some c => connected c

/-- What the feature with this id shows: the attribute it reads (`attribute_getter` in batterysensor.py:28-50, contactsensor.py:20-23,
humiditysensor.py:20-36, motionsensor.py:19-22, overheatprotection.py:20-22, reportmode.py:20-23, temperaturesensor.py:22-51,
waterleaksensor.py:30-57, autooff.py:48-51, powerprotection.py:20-24, cloud.py:21-24). -/
def shown (d : Dev) (id : String) : Except Exc Reading :=
  if id = "battery_level" then reported d "battery_percentage"
  else if id = "battery_low" then batteryLow d
  else if id = "is_open" then reported d "open"
  else if id = "humidity" then reported d "current_humidity"
  else if id = "humidity_warning" then humidityWarning d
  else if id = "motion_detected" then reported d "detected"
  else if id = "overheated" then overheated d
  else if id = "report_interval" then reported d "report_interval"
  else if id = "temperature" then reported d "current_temp"
  else if id = "temperature_warning" then temperatureWarning d
  else if id = "temperature_unit" then reported d "temp_unit"
  else if id = "water_leak" then waterLeak d
  else if id = "water_alert" then reported d "in_alarm"
  else if id = "water_alert_timestamp" then alertTimestamp d
  else if id = "auto_off_at" then autoOffAt d
  else if id = "overloaded" then overloaded d
  else if id = "cloud_connection" then
    match d.cloud with
    | none => .error (.other "KeyError")
    | some c => (connected c).map fun b => .json (.bool b)
  else .error (.other "KeyError")

/-- `sys_info.get(key) is not None`. -/
def given (i : Info) (key : String) : Bool := decide ((Dict.get? i key).getD .null ≠ .null)

/-- Whether the first update makes the feature with this id available, given a device that has the component of the module: by
`SYSINFO_LOOKUP_KEYS` (smartdevice.py:426-428, contactsensor.py:13, overheatprotection.py:12), `_check_supported` (smartdevice.py:436,
autooff.py:99-105, powerprotection.py:119-124), and conditions in `_initialize_features` (batterysensor.py:21-24, 39, temperaturesensor.py:32).
Of the other features nothing is asked. -/
def offers (i : Info) (id : String) : Bool :=
  if id = "is_open" then given i "open"
  else if id = "overheated" then given i "overheated" || given i "overheat_status"
  else if id = "auto_off_at" then Dict.has i "auto_off_status"
  else if id = "overloaded" then Dict.has i "power_protection_status"
  else if id = "battery_low" then Dict.has i "at_low_battery" || Dict.has i "is_low"
  else if id = "battery_level" then Dict.has i "battery_percentage"
  else if id = "temperature_warning" then Dict.has i "current_temp_exception"
  else true

end Kasa.Sensors
