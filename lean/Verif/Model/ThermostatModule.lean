import Verif.Model.Settings
/-!
# The thermostat module over its parts (smart/modules/thermostat.py, frostprotection.py)
-/

namespace Kasa.Thermostat
open Setters

/-- Which of the modules `TemperatureControl` and `TemperatureSensor` the device has. -/
structure Parts where
  control : Bool
  sensor : Bool

/-- Is there a thermostat module (smart/smartdevice.py:445-449)? -/
def Parts.thermostat (p : Parts) : Bool := p.control && p.sensor

/-- `self._device.modules[...]` and what is done with the module. -/
def using' {α : Type} (has : Bool) (x : Except Exc α) : Except Exc α := if has then x else .error (.other "KeyError")

/-- `_all_features` (smart/modules/thermostat.py:17-25). -/
def allFeatures {α : Type} (p : Parts) (control sensor : List (String × α)) : List (String × α) :=
  let ret := if p.control then Dict.update [] control else []
  if p.sensor then Dict.update ret sensor else ret

/-- `state` (smart/modules/thermostat.py:31-34). -/
def thState (p : Parts) (info : Info) : Except Exc Bool := using' p.control (state info)

/-- `set_state` (smart/modules/thermostat.py:36-38). -/
def thSetState (p : Parts) (enabled : Bool) : Except Exc Command := using' p.control (.ok (setState enabled))

/-- `mode` (smart/modules/thermostat.py:40-43). -/
def thMode (p : Parts) (info : Info) : Except Exc Mode := using' p.control (mode info)

/-- `target_temperature` (smart/modules/thermostat.py:45-48). -/
def thTarget (p : Parts) (info : Info) : Except Exc PyV := using' p.control (targetTemperature info)

/-- `set_target_temperature` (smart/modules/thermostat.py:50-56). -/
def thSetTarget (p : Parts) (info : Info) (x : Num) : Except Exc Command := using' p.control (setTargetTemperature info x)

/-- `temperature` (smart/modules/thermostat.py:58-61, temperaturesensor.py:62-65). -/
def thTemperature (p : Parts) (info : Info) : Except Exc PyV := using' p.sensor (item info "current_temp")

/-- `temperature_unit` (smart/modules/thermostat.py:63-66, temperaturesensor.py:72-75). -/
def thUnit (p : Parts) (info : Info) : Except Exc PyV := using' p.sensor (item info "temp_unit")

/-- `set_temperature_unit` (smart/modules/thermostat.py:68-74). -/
def thSetUnit (p : Parts) (unit : String) : Except Exc Command := using' p.sensor (.ok (Settings.setTemperatureUnit unit))

/-- The keys of `query` of frost protection (frostprotection.py:17-19). -/
def frostQuery : List String := []

/-- `data` of frost protection (smart/smartmodule.py:186-190): the device information if the module asks for nothing; `told` is the
answer to what it asks for otherwise. -/
def frostData (info told : Info) : Info := if frostQuery.isEmpty then info else told

/-- `minimum_temperature` (frostprotection.py:33-36). -/
def frostMinimum (info told : Info) : Except Exc PyV := item (frostData info told) "min_temp"

end Kasa.Thermostat
