import Verif.Model.SmartReadings
/-!
# Specification: what a device told of itself
-/

namespace Kasa.SmartReadings.Spec

/-- What a device tells of itself, as far as it is a device of the usual kind. -/
structure Told where
  id : String
  on : Bool
  /-- In ten thousandths of degrees. -/
  latitude : Int
  longitude : Int
  rssi : Int
  name : String
  firmware : String
  hardware : String
  mac : String
  family : String
  oem : String

/-- The report of it.  The name is in base64. -/
structure Reports (info : Info) (t : Told) : Prop where
  id : Dict.get? info "device_id" = some (.str t.id)
  on : Dict.get? info "device_on" = some (.bool t.on)
  latitude : Dict.get? info "latitude" = some (.num t.latitude)
  longitude : Dict.get? info "longitude" = some (.num t.longitude)
  rssi : Dict.get? info "rssi" = some (.num t.rssi)
  name : Dict.get? info "nickname" = some (Names.b64 t.name)
  firmware : Dict.get? info "fw_ver" = some (.str t.firmware)
  hardware : Dict.get? info "hw_ver" = some (.str t.hardware)
  mac : Dict.get? info "mac" = some (.str t.mac)
  family : Dict.get? info "type" = some (.str t.family)
  oem : Dict.get? info "oem_id" = some (.str t.oem)

/-- What was heard. -/
def told : Event → Info
  | .discovered i | .updated i | .pushed i => i

end Kasa.SmartReadings.Spec
