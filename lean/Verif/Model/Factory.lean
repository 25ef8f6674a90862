import Verif.Model.Config
import Verif.Model.SysInfo
/-!
# Choosing protocol, transport and device class (device_factory.py)
-/

namespace Kasa.Factory

open Config

/-- The protocol classes. -/
inductive Proto where
  | iot | smart | smartCam
  deriving DecidableEq, Repr

/-- The transport classes. -/
inductive Transport where
  | xor | klap | klapV2 | aes | ssl | sslAes | linkie
  deriving DecidableEq, Repr

/-- The device classes. -/
inductive DevClass where
  | iot (c : SysInfo.IotClass) | smart | smartCam
  deriving DecidableEq, Repr

/-- `supported_device_protocols` (device_factory.py:227-238). -/
def supportedProtocols : List (String × (Proto × Transport)) :=
  [("IOT.XOR", (.iot, .xor)), ("IOT.KLAP", (.iot, .klap)), ("SMART.AES", (.smart, .aes)),
   ("SMART.KLAP", (.smart, .klapV2)), ("SMART.KLAP.HTTPS", (.smart, .klapV2)),
   ("SMART.AES.HTTPS", (.smartCam, .sslAes))]

/-- `s.split(".")[0]` (device_factory.py:196). -/
def beforeDot (s : String) : String := String.ofList (s.toList.takeWhile (· != '.'))

/-- `protocol_transport_key` (device_factory.py:219-224). -/
def transportKey (c : ConnParams) : String :=
  beforeDot c.family.value ++ "." ++ c.encryption.value ++ (if c.https then ".HTTPS" else "")

/-- `get_protocol` (device_factory.py:184-242): the classes of the protocol and its transport. -/
def getProtocol (c : DeviceConfig) (strict : Bool) : Option (Proto × Transport) :=
  let ct := c.connectionType
  if ct.family = .smartIpCamera ∨ ct.family = .smartTapoDoorbell then
    if strict ∧ ct.encryption ≠ .aes then none else some (.smartCam, .sslAes)
  else if ct.family = .iotIpCamera then
    if strict ∧ ct.encryption ≠ .xor then none else some (.iot, .linkie)
  else if ct.family = .smartTapoRobovac ∧ ct.encryption = .aes then some (.smart, .ssl)
  else Dict.get? supportedProtocols (transportKey ct)

/-- `supported_device_types` (device_factory.py:152-168). -/
def supportedTypes : List (String × DevClass) :=
  [("SMART.TAPOPLUG", .smart), ("SMART.TAPOBULB", .smart), ("SMART.TAPOSWITCH", .smart), ("SMART.KASAPLUG", .smart),
   ("SMART.TAPOHUB", .smart), ("SMART.TAPOHUB.HTTPS", .smartCam), ("SMART.KASAHUB", .smart), ("SMART.KASASWITCH", .smart),
   ("SMART.IPCAMERA.HTTPS", .smartCam), ("SMART.TAPODOORBELL.HTTPS", .smartCam), ("SMART.TAPOROBOVAC.HTTPS", .smart),
   ("IOT.SMARTPLUGSWITCH", .iot .plug), ("IOT.SMARTBULB", .iot .bulb)]

/-- `get_device_class_from_family` (device_factory.py:148-181). -/
def classFromFamily (deviceType : String) (https requireExact : Bool) : Option DevClass :=
  match Dict.get? supportedTypes (deviceType ++ (if https then ".HTTPS" else "")) with
  | some c => some c
  | none => if "SMART.".toList.isPrefixOf deviceType.toList ∧ ¬ requireExact then some .smart else none

end Kasa.Factory
