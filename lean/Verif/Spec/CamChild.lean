import Verif.Model.CamChild
/-!
# Specification: what is said of a camera behind a hub
-/

namespace Kasa.DeviceInfo.Spec

/-- What the hub said last, if it said anything. -/
def lastTold : List CamStep → Option (List (String × Json))
  | [] => none
  | .told i :: rest => (lastTold rest).or (some i)
  | .read :: rest => lastTold rest

/-- What hubs call differently: their name and that of the other devices. -/
def childRenamed : List (String × String) := [("device_model", "model"), ("sw_ver", "fw_ver"), ("hw_id", "hwId")]

end Kasa.DeviceInfo.Spec
