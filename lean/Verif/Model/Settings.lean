import Verif.Model.Thermostat
/-!
# Settings of newer devices (smart/modules/autooff.py, led.py, firmware.py, powerprotection.py, childprotection.py,
childlock.py, temperaturesensor.py, fan.py)

The setters send what the library has read last, with one field changed.
-/

namespace Kasa.Settings
open Setters Thermostat

/-- What the library has read: the device information, and the answers to `get_auto_off_config`, `get_led_info`,
`get_auto_update_info`, `get_protection_power` with `get_max_power`, and `getChildLockInfo`. -/
structure Data where
  info : Info
  autoOff : Info
  led : Info
  autoUpdate : Info
  power : Protection
  childLock : Info

/-- `enabled` of auto off (autooff.py:61-64). -/
def autoOff (d : Data) : Except Exc PyV := item d.autoOff "enable"

/-- `delay` (autooff.py:73-76). -/
def delay (d : Data) : Except Exc PyV := item d.autoOff "delay_min"

/-- `set_enabled` of auto off (autooff.py:66-71). -/
def setAutoOff (d : Data) (enable : Bool) : Except Exc Command := do
  let delay ← item d.autoOff "delay_min"
  pure (call "set_auto_off_config" [("enable", .num (.bool enable)), ("delay_min", delay)])

/-- `set_delay` (autooff.py:78-82). -/
def setDelay (d : Data) (minutes : Int) : Except Exc Command := do
  let enable ← item d.autoOff "enable"
  pure (call "set_auto_off_config" [("delay_min", .num (.int minutes)), ("enable", enable)])

/-- `mode` of the LED (smart/modules/led.py:21-27). -/
def ledMode (d : Data) : Except Exc PyV := item d.led "led_rule"

/-- `led` (smart/modules/led.py:29-32). -/
def led (d : Data) : Except Exc Bool := do
  match (← item d.led "led_rule") with
  | .str "never" => pure false
  | _ => pure true

/-- `set_led` (smart/modules/led.py:34-41). -/
def setLed (d : Data) (enable : Bool) : Command :=
  call "set_led_info" (Dict.set d.led "led_rule" (.str (if enable then "always" else "never")))

/-- `auto_update_enabled` (firmware.py:239-242). -/
def autoUpdate (d : Data) : PyV :=
  match Dict.get? d.autoUpdate "enable" with
  | some v => v
  | none => .num (.bool false)

/-- `set_auto_update_enabled` (firmware.py:244-248). -/
def setAutoUpdate (d : Data) (enabled : Bool) : Command :=
  call "set_auto_update_info" (Dict.set d.autoUpdate "enable" (.num (.bool enabled)))

/-- `enabled` of power protection (powerprotection.py:57-60). -/
def protection (d : Data) : Except Exc PyV := item d.power.stored "enabled"

/-- `protection_threshold` (powerprotection.py:98-104). -/
def threshold (d : Data) : PyV :=
  match Dict.get? d.power.stored "protection_power" with
  | some v => v
  | none => .num (.int 0)

/-- `_threshold_or_zero` (powerprotection.py:88-91), shown by the feature. -/
def thresholdOrZero (d : Data) : Except Exc PyV := do
  if truthy (← protection d) then pure (threshold d) else pure (.num (.int 0))

/-- `enabled` of child protection (childprotection.py:34-37). -/
def childProtection (d : Data) : Except Exc PyV := item d.info "child_protection"

/-- `set_enabled` of child protection (childprotection.py:39-41). -/
def setChildProtection (enabled : Bool) : Command := call "set_child_protection" [("enable", .num (.bool enabled))]

/-- `enabled` of the child lock (childlock.py:30-33). -/
def childLock (d : Data) : Except Exc PyV := item d.childLock "child_lock_status"

/-- `set_enabled` of the child lock (childlock.py:35-37). -/
def setChildLock (enabled : Bool) : Command := call "setChildLockInfo" [("child_lock_status", .num (.bool enabled))]

/-- `temperature_unit` (temperaturesensor.py:72-75). -/
def temperatureUnit (d : Data) : Except Exc PyV := item d.info "temp_unit"

/-- `set_temperature_unit` (temperaturesensor.py:77-81). -/
def setTemperatureUnit (unit : String) : Command := call "set_temperature_unit" [("temp_unit", .str unit)]

/-- `fan_speed_level` (smart/modules/fan.py:51-54). -/
def fanSpeed (d : Data) : Except Exc PyV := do
  match (← item d.info "device_on") with
  | .num (.bool false) => pure (.num (.int 0))
  | _ => item d.info "fan_speed_level"

/-- `sleep_mode` (smart/modules/fan.py:68-71). -/
def sleepMode (d : Data) : Except Exc PyV := item d.info "fan_sleep_mode_on"

/-- `set_sleep_mode` (smart/modules/fan.py:73-75). -/
def setSleepMode (on : Bool) : Command := call "set_device_info" [("fan_sleep_mode_on", .num (.bool on))]

end Kasa.Settings
