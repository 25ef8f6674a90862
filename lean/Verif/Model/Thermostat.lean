import Verif.Model.Setters
/-!
# Thermostats (smart/modules/temperaturecontrol.py, frostprotection.py, thermostat.py)

`info` is the device information, a dict of values.
-/

namespace Kasa.Thermostat
open Setters

/-- A dict reported by a device. -/
abbrev Info := List (String × PyV)

/-- `ThermostatState` (interfaces/thermostat.py:12-19). -/
inductive Mode where
  | heating | calibrating | idle | off | unknown
  deriving DecidableEq, Repr

/-- The members in order with their values (interfaces/thermostat.py:15-19). -/
def modes : List (Mode × String) :=
  [(.heating, "heating"), (.calibrating, "progress_calibration"), (.idle, "idle"), (.off, "off"), (.unknown, "unknown")]

/-- `d[k]`. -/
def item (d : Info) (k : String) : Except Exc PyV :=
  match Dict.get? d k with
  | some v => .ok v
  | none => .error (.other "KeyError")

/-- Truth value. -/
def truthy : PyV → Bool
  | .num n => n.truthy
  | .str s => decide (s ≠ "")
  | .arr xs => !xs.isEmpty
  | .obj kvs => !kvs.isEmpty

/-- `state` (temperaturecontrol.py:78-81). -/
def state (info : Info) : Except Exc Bool :=
  (item info "frost_protection_on").map fun v =>
    match v with
    | .num (.bool false) => true
    | _ => false

/-- `set_state` (temperaturecontrol.py:83-85). -/
def setState (enabled : Bool) : Command := call "set_device_info" [("frost_protection_on", .num (.bool !enabled))]

/-- The text in a list entry, if it is text. -/
def text : PyV → Option String
  | .str s => some s
  | _ => none

/-- `states` (temperaturecontrol.py:133-136).  Simplified: the set is a list; entries that are no text are left out, and
unhashable ones do not raise. -/
def states (info : Info) : Except Exc (List String) :=
  (item info "trv_states").bind fun v =>
    match v with
    | .arr xs => .ok (xs.filterMap text)
    | .str s => .ok (s.toList.map fun c => String.ofList [c])
    | .obj kvs => .ok (kvs.map (·.1))
    | .num _ => .error (.other "TypeError")

/-- The end of `mode` (temperaturecontrol.py:94-111). -/
def modeOf (states : List String) : Mode :=
  if states.isEmpty then .idle
  else
    let states := states.filter (· ≠ "low_battery")
    match modes.find? (fun m => states.contains m.2) with
    | some m => m.1
    | none => .unknown

/-- `mode` (temperaturecontrol.py:87-111). -/
def mode (info : Info) : Except Exc Mode :=
  if (match Dict.get? info "frost_protection_on" with | some v => truthy v | none => false) then .ok .off
  else (states info).map modeOf

/-- `target_temperature` (temperaturecontrol.py:128-131). -/
def targetTemperature (info : Info) : Except Exc PyV := item info "target_temp"

/-- A limit, an integer. -/
def limit (info : Info) (k : String) : Except Exc Int :=
  (item info k).bind fun v =>
    match v with
    | .num (.int n) => .ok n
    | _ => .error (.other "TypeError")

/-- `set_target_temperature` (temperaturecontrol.py:138-154).  Simplified: limits that are no integers raise. -/
def setTargetTemperature (info : Info) (target : Num) : Except Exc Command := do
  let lo ← limit info "min_control_temp"
  let hi ← limit info "max_control_temp"
  setTarget lo hi (Dict.has info "frost_protection_on") target

/-- `temperature_offset` (temperaturecontrol.py:156-159). -/
def temperatureOffset (info : Info) : Except Exc PyV := item info "temp_offset"

/-- `enabled` of frost protection (frostprotection.py:21-24). -/
def frostEnabled (info : Info) : Except Exc PyV := item info "frost_protection_on"

/-- `set_enabled` of frost protection (frostprotection.py:26-31). -/
def setFrost (enable : Bool) : Command := call "set_device_info" [("frost_protection_on", .num (.bool enable))]

end Kasa.Thermostat
