/-!
# The table of supported connections

Rows of plain text: family, encryption and whether HTTPS is used, with the protocol and transport that speak to it.
-/

namespace Kasa.FactorySpec

/-- Families that speak the newer protocol over an encryption chosen by the device. -/
def smartFamilies : List String :=
  ["SMART.KASAPLUG", "SMART.KASASWITCH", "SMART.TAPOPLUG", "SMART.TAPOBULB", "SMART.TAPOSWITCH", "SMART.TAPOHUB",
   "SMART.KASAHUB", "SMART.TAPOROBOVAC", "SMART.TAPOCHIME"]

/-- The rows: `Row family encryption https protocol transport`. -/
inductive Row : String → String → Bool → String → String → Prop where
  | legacyPlug : Row "IOT.SMARTPLUGSWITCH" "XOR" false "IotProtocol" "XorTransport"
  | legacyBulb : Row "IOT.SMARTBULB" "XOR" false "IotProtocol" "XorTransport"
  | legacyPlugKlap : Row "IOT.SMARTPLUGSWITCH" "KLAP" false "IotProtocol" "KlapTransport"
  | legacyBulbKlap : Row "IOT.SMARTBULB" "KLAP" false "IotProtocol" "KlapTransport"
  | smartKlap (f h) : f ∈ smartFamilies → Row f "KLAP" h "SmartProtocol" "KlapTransportV2"
  | smartAes (f) : f ∈ smartFamilies → f ≠ "SMART.TAPOROBOVAC" → Row f "AES" false "SmartProtocol" "AesTransport"
  | smartAesHttps (f) : f ∈ smartFamilies → f ≠ "SMART.TAPOROBOVAC" →
      Row f "AES" true "SmartCamProtocol" "SslAesTransport"
  | vacuum (h) : Row "SMART.TAPOROBOVAC" "AES" h "SmartProtocol" "SslTransport"
  | camera (h) : Row "SMART.IPCAMERA" "AES" h "SmartCamProtocol" "SslAesTransport"
  | doorbell (h) : Row "SMART.TAPODOORBELL" "AES" h "SmartCamProtocol" "SslAesTransport"
  | legacyCamera (h) : Row "IOT.IPCAMERA" "XOR" h "IotProtocol" "LinkieTransportV2"

/-- What the lenient mode accepts beside the rows: cameras and doorbells, whatever encryption they announce. -/
inductive Lenient : String → String → Bool → String → String → Prop where
  | row (f e h p t) : Row f e h p t → Lenient f e h p t
  | camera (e h) : Lenient "SMART.IPCAMERA" e h "SmartCamProtocol" "SslAesTransport"
  | doorbell (e h) : Lenient "SMART.TAPODOORBELL" e h "SmartCamProtocol" "SslAesTransport"
  | legacyCamera (e h) : Lenient "IOT.IPCAMERA" e h "IotProtocol" "LinkieTransportV2"

/-- The protocol a device class speaks. -/
inductive Speaks : String → String → Prop where
  | iot (c) : c ∈ ["IotPlug", "IotBulb", "IotStrip", "IotDimmer", "IotWallSwitch", "IotLightStrip"] →
      Speaks c "IotProtocol"
  | smart : Speaks "SmartDevice" "SmartProtocol"
  | smartCam : Speaks "SmartCamDevice" "SmartCamProtocol"

/-- The class of the device a family is known for: `Class family https class`. -/
inductive Class : String → Bool → String → Prop where
  | smart (f) : f ∈ ["SMART.TAPOPLUG", "SMART.TAPOBULB", "SMART.TAPOSWITCH", "SMART.TAPOHUB", "SMART.KASAPLUG",
      "SMART.KASASWITCH", "SMART.KASAHUB"] → Class f false "SmartDevice"
  | cam (f) : f ∈ ["SMART.TAPOHUB", "SMART.IPCAMERA", "SMART.TAPODOORBELL"] → Class f true "SmartCamDevice"
  | vacuum : Class "SMART.TAPOROBOVAC" true "SmartDevice"
  | plug : Class "IOT.SMARTPLUGSWITCH" false "IotPlug"
  | bulb : Class "IOT.SMARTBULB" false "IotBulb"

end Kasa.FactorySpec
