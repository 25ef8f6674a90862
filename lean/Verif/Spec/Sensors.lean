import Verif.Model.Sensors
/-!
# Specification: what sensors show
-/

namespace Kasa.SensorsSpec
open Sensors

/-- The device reported this. -/
abbrev Says (d : Dev) (key : String) (v : Json) : Prop := Dict.get? d.info key = some v

/-- The device said nothing about it. -/
abbrev Silent (d : Dev) (key : String) : Prop := Dict.get? d.info key = none

/-- The features that show what the device reported, as it is. -/
def plain : List (String × String) :=
  [("battery_level", "battery_percentage"), ("is_open", "open"), ("humidity", "current_humidity"), ("motion_detected", "detected"),
   ("report_interval", "report_interval"), ("temperature", "current_temp"), ("temperature_unit", "temp_unit"), ("water_alert", "in_alarm")]

/-- Reports that keep what was reported: nothing that was said is not said later, and nothing but `null` becomes `null`. -/
def Keeps (first later : Info) : Prop :=
  ∀ key v, Dict.get? first key = some v → ∃ w, Dict.get? later key = some w ∧ (v ≠ .null → w ≠ .null)

end Kasa.SensorsSpec
