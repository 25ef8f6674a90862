import Verif.Spec.SmartDevice
/-!
# What the children of a camera hub should be
-/

namespace Kasa.CamDevice

/-- The kinds of children that speak the SMART protocol. -/
def sensorsAndSwitches : List String :=
  ["plug.powerstrip.sub-plug", "subg.plugswitch.switch", "subg.trigger.contact-sensor", "subg.trigger.temp-hmdt-sensor",
   "subg.trigger.water-leak-sensor", "subg.trigger.motion-sensor", "kasa.switch.outlet.sub-fan", "kasa.switch.outlet.sub-dimmer",
   "subg.trv", "subg.trigger.button"]

/-- A child is a camera by what is reported of it. -/
def IsCamera (info : Json) : Prop := info.get? "category" = some (.str "camera")

/-- A child is a sensor, a switch or the like by what is reported of it. -/
def IsSensor (info : Json) : Prop := ∃ cat ∈ sensorsAndSwitches, info.get? "category" = some (.str cat)

/-- A child of a kind that the library knows. -/
def Supported (info : Json) : Prop := IsCamera info ∨ IsSensor info

/-- What the library calls an entry of what is reported of a camera. -/
inductive Called : String → String → Prop where
  | model : Called "device_model" "model"
  | firmware : Called "sw_ver" "fw_ver"
  | hardware : Called "hw_id" "hwId"
  | same (k : String) : k ≠ "device_model" → k ≠ "sw_ver" → k ≠ "hw_id" → Called k k

/-- The info of a camera holds what was reported of it, under the names of the library; if two entries get the same name, one of them. -/
def CameraInfo (reported held : Json) : Prop :=
  ∃ ps qs, reported = .obj ps ∧ held = .obj qs ∧ Dict.WF qs ∧
    (∀ k v, (k, v) ∈ ps → ∃ k', Called k k' ∧ k' ∈ Dict.keys qs) ∧
    (∀ k' v, (k', v) ∈ qs → ∃ k, Called k k' ∧ (k, v) ∈ ps)

/-- The names under which a camera reports itself, and those of the library. -/
inductive OwnCalled : String → String → Prop where
  | model : OwnCalled "device_model" "model"
  | alias : OwnCalled "device_alias" "alias"
  | firmware : OwnCalled "sw_version" "fw_ver"
  | version : OwnCalled "hw_version" "hw_ver"
  | hardware : OwnCalled "hw_id" "hwId"
  | id : OwnCalled "dev_id" "device_id"
  | same (k : String) : k ∉ ["device_model", "device_alias", "sw_version", "hw_version", "hw_id", "dev_id"] → OwnCalled k k

/-- The info of a device holds what it said of itself. -/
def OwnInfo (said held : Json) : Prop :=
  ∃ ps qs, (said.get? "device_info").bind (·.get? "basic_info") = some (.obj ps) ∧ held = .obj qs ∧ Dict.WF qs ∧
    (∀ k v, (k, v) ∈ ps → ∃ k', OwnCalled k k' ∧ k' ∈ Dict.keys qs) ∧
    (∀ k' v, (k', v) ∈ qs → ∃ k, OwnCalled k k' ∧ (k, v) ∈ ps)

end Kasa.CamDevice
