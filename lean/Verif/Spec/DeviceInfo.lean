import Verif.Model.DeviceInfo
/-!
# Specification: the kind of a device
-/

namespace Kasa.DeviceInfo.Spec

open SysInfo

/-- The text occurs in the other. -/
def Occurs (part whole : String) : Prop := ∃ a b, whole.toList = a ++ part.toList ++ b

/-- A row of the table of kinds: what the type has to contain, which component is needed, and the kind. -/
structure Row where
  text : Option String
  component : Option String
  kind : DeviceType

/-- The documented precedence. -/
def rows : List Row := [
  ⟨some "HUB", none, .hub⟩,
  ⟨some "PLUG", some "child_device", .strip⟩,
  ⟨some "PLUG", none, .plug⟩,
  ⟨none, some "light_strip", .lightStrip⟩,
  ⟨some "SWITCH", some "child_device", .wallSwitch⟩,
  ⟨none, some "dimmer_calibration", .dimmer⟩,
  ⟨none, some "brightness", .bulb⟩,
  ⟨some "SWITCH", none, .wallSwitch⟩,
  ⟨some "SENSOR", none, .sensor⟩,
  ⟨some "ENERGY", none, .thermostat⟩,
  ⟨some "ROBOVAC", none, .vacuum⟩,
  ⟨some "TAPOCHIME", none, .chime⟩]

/-- Does a row apply? -/
def Applies (components : List String) (type : String) (r : Row) : Prop :=
  (∀ t, r.text = some t → Occurs t type) ∧ (∀ c, r.component = some c → c ∈ components)

/-- The categories of children, by kind. -/
def categories : List (DeviceType × List String) := [
  (.plug, ["plug.powerstrip.sub-plug"]),
  (.wallSwitch, ["subg.plugswitch.switch"]),
  (.sensor, ["subg.trigger.contact-sensor", "subg.trigger.temp-hmdt-sensor", "subg.trigger.water-leak-sensor",
    "subg.trigger.motion-sensor", "subg.trigger.button"]),
  (.fan, ["kasa.switch.outlet.sub-fan"]),
  (.dimmer, ["kasa.switch.outlet.sub-dimmer"]),
  (.thermostat, ["subg.trv"])]

/-- What cameras call differently: their name and that of the other devices. -/
def renamed : List (String × String) :=
  [("device_model", "model"), ("device_alias", "alias"), ("sw_version", "fw_ver"), ("hw_version", "hw_ver"), ("hw_id", "hwId"),
   ("dev_id", "device_id")]

end Kasa.DeviceInfo.Spec
