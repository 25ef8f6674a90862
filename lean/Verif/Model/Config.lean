import Verif.Py.Ops
/-!
# Connection configuration (deviceconfig.py, credentials.py)
-/

namespace Kasa.Config

open Ops

/-- `DeviceEncryptionType` (deviceconfig.py:59-64). -/
inductive Encryption where
  | klap | aes | xor
  deriving DecidableEq, Repr

/-- `DeviceFamily` (deviceconfig.py:67-83). -/
inductive Family where
  | iotSmartPlugSwitch | iotSmartBulb | iotIpCamera | smartKasaPlug | smartKasaSwitch | smartTapoPlug | smartTapoBulb
  | smartTapoSwitch | smartTapoHub | smartKasaHub | smartIpCamera | smartTapoRobovac | smartTapoChime
  | smartTapoDoorbell
  deriving DecidableEq, Repr

/-- `DeviceEncryptionType.value` (deviceconfig.py:62-64). -/
def Encryption.value : Encryption → String
  | .klap => "KLAP"
  | .aes => "AES"
  | .xor => "XOR"

/-- `DeviceFamily.value` (deviceconfig.py:70-83). -/
def Family.value : Family → String
  | .iotSmartPlugSwitch => "IOT.SMARTPLUGSWITCH"
  | .iotSmartBulb => "IOT.SMARTBULB"
  | .iotIpCamera => "IOT.IPCAMERA"
  | .smartKasaPlug => "SMART.KASAPLUG"
  | .smartKasaSwitch => "SMART.KASASWITCH"
  | .smartTapoPlug => "SMART.TAPOPLUG"
  | .smartTapoBulb => "SMART.TAPOBULB"
  | .smartTapoSwitch => "SMART.TAPOSWITCH"
  | .smartTapoHub => "SMART.TAPOHUB"
  | .smartKasaHub => "SMART.KASAHUB"
  | .smartIpCamera => "SMART.IPCAMERA"
  | .smartTapoRobovac => "SMART.TAPOROBOVAC"
  | .smartTapoChime => "SMART.TAPOCHIME"
  | .smartTapoDoorbell => "SMART.TAPODOORBELL"

/-- The members in the order of declaration. -/
def Encryption.all : List Encryption := [.klap, .aes, .xor]

/-- The members in the order of declaration. -/
def Family.all : List Family :=
  [.iotSmartPlugSwitch, .iotSmartBulb, .iotIpCamera, .smartKasaPlug, .smartKasaSwitch, .smartTapoPlug, .smartTapoBulb,
    .smartTapoSwitch, .smartTapoHub, .smartKasaHub, .smartIpCamera, .smartTapoRobovac, .smartTapoChime, .smartTapoDoorbell]

/-- `DeviceFamily(x)`: the member with that value, else `ValueError`. -/
def Family.ofJson (x : Json) : Except Exc Family :=
  match Family.all.find? (fun f => decide (x = .str f.value)) with
  | some f => .ok f
  | none => .error (.other "ValueError")

/-- `DeviceEncryptionType(x)`. -/
def Encryption.ofJson (x : Json) : Except Exc Encryption :=
  match Encryption.all.find? (fun f => decide (x = .str f.value)) with
  | some f => .ok f
  | none => .error (.other "ValueError")

/-- `DeviceConnectionParameters` (deviceconfig.py:95-103). -/
structure ConnParams where
  family : Family
  encryption : Encryption
  loginVersion : Option Int
  https : Bool
  httpPort : Option Int
  deriving DecidableEq, Repr

/-- `DeviceConnectionParameters.from_values` (deviceconfig.py:105-129).  The strings may be any value, as they come from
devices. -/
def fromValues (family encryption : Json) (loginVersion : Option Int) (https : Option Bool) (httpPort : Option Int) :
    Except Exc ConnParams :=
  match Family.ofJson family, Encryption.ofJson encryption with
  | .ok f, .ok e =>
    .ok { family := f, encryption := e, loginVersion, https := https.getD false, httpPort }
  | _, _ => .error .kasa

/-- `Credentials` (credentials.py:9-16). -/
structure Credentials where
  username : String
  password : String
  deriving DecidableEq, Repr

/-- `KeyPairDict` (deviceconfig.py:52-56). -/
structure KeyPair where
  priv : String
  pub : String
  deriving DecidableEq, Repr

/-- `DeviceConfig` (deviceconfig.py:132-171).  The HTTP client is an opaque object, here a number. -/
structure DeviceConfig where
  host : String
  timeout : Option Int
  portOverride : Option Int
  credentials : Option Credentials
  credentialsHash : Option String
  batchSize : Option Int
  connectionType : ConnParams
  httpClient : Option Nat
  aesKeys : Option KeyPair
  deriving DecidableEq, Repr

/-- `DEFAULT_TIMEOUT` (deviceconfig.py:136). -/
def defaultTimeout : Int := 5

/-- The default connection type (deviceconfig.py:152-156). -/
def defaultConnection : ConnParams :=
  { family := .iotSmartPlugSwitch, encryption := .xor, loginVersion := none, https := false, httpPort := none }

/-- `DeviceConfig(host=host)`. -/
def ofHost (host : String) : DeviceConfig :=
  { host, timeout := some defaultTimeout, portOverride := none, credentials := none, credentialsHash := none,
    batchSize := none, connectionType := defaultConnection, httpClient := none, aesKeys := none }

/-- A field of the serialised form: omitted when `None` (`omit_none`, deviceconfig.py:92). -/
def field (k : String) (v : Option Json) : List (String × Json) :=
  match v with
  | some j => [(k, j)]
  | none => []

/-- `DeviceConnectionParameters.to_dict` (generated by mashumaro from deviceconfig.py:95-103). -/
def ConnParams.toDict (c : ConnParams) : Json :=
  .obj (field "device_family" (some (.str c.family.value)) ++ field "encryption_type" (some (.str c.encryption.value)) ++
    field "login_version" (c.loginVersion.map .num) ++ field "https" (some (.bool c.https)) ++
    field "http_port" (c.httpPort.map .num))

/-- `Credentials` as a dict (generated by mashumaro). -/
def Credentials.toDict (c : Credentials) : Json :=
  .obj [("username", .str c.username), ("password", .str c.password)]

/-- `KeyPairDict` as a dict. -/
def KeyPair.toDict (k : KeyPair) : Json := .obj [("private", .str k.priv), ("public", .str k.pub)]

/-- `DeviceConfig.to_dict` (generated by mashumaro from deviceconfig.py:132-171; `http_client` is omitted,
deviceconfig.py:168). -/
def DeviceConfig.toDict (c : DeviceConfig) : Json :=
  .obj (field "host" (some (.str c.host)) ++ field "timeout" (c.timeout.map .num) ++
    field "port_override" (c.portOverride.map .num) ++ field "credentials" (c.credentials.map Credentials.toDict) ++
    field "credentials_hash" (c.credentialsHash.map .str) ++ field "batch_size" (c.batchSize.map .num) ++
    field "connection_type" (some c.connectionType.toDict) ++ field "aes_keys" (c.aesKeys.map KeyPair.toDict))

/-- `to_dict_control_credentials` (deviceconfig.py:179-202). -/
def DeviceConfig.toDictControl (c : DeviceConfig) (hash : Option String) (exclude : Bool) : Json :=
  match hash with
  | none => if !exclude then c.toDict else { c with credentials := none }.toDict
  | some h => { c with credentialsHash := if h ≠ "" then some h else none, credentials := none }.toDict

/-! `from_dict` is generated by mashumaro.  Simplified: a value of the wrong JSON type is refused, where mashumaro converts
some of them (such as a number written as a string). -/

/-- A required field. -/
def required {α : Type} (d : List (String × Json)) (k : String) (read : Json → Except Exc α) : Except Exc α :=
  match Dict.get? d k with
  | some j => read j
  | none => .error (.other "MissingField")

/-- A field with a default. -/
def optional {α : Type} (d : List (String × Json)) (k : String) (dflt : α) (read : Json → Except Exc α) : Except Exc α :=
  match Dict.get? d k with
  | some j => read j
  | none => .ok dflt

/-- `X | None`. -/
def orNull {α : Type} (read : Json → Except Exc α) (j : Json) : Except Exc (Option α) :=
  if j = .null then .ok none else (read j).map some

def readInt : Json → Except Exc Int
  | .num n => .ok n
  | _ => .error (.other "InvalidFieldValue")

def readStr : Json → Except Exc String
  | .str s => .ok s
  | _ => .error (.other "InvalidFieldValue")

def readBool : Json → Except Exc Bool
  | .bool b => .ok b
  | _ => .error (.other "InvalidFieldValue")

/-- An invalid enum value makes the field invalid. -/
def invalid {α : Type} : Except Exc α → Except Exc α
  | .ok a => .ok a
  | .error _ => .error (.other "InvalidFieldValue")

/-- `DeviceConnectionParameters.from_dict`. -/
def ConnParams.fromDict : Json → Except Exc ConnParams
  | .obj d => do
    let family ← required d "device_family" (fun j => invalid (Family.ofJson j))
    let encryption ← required d "encryption_type" (fun j => invalid (Encryption.ofJson j))
    let loginVersion ← optional d "login_version" none (orNull readInt)
    let https ← optional d "https" false readBool
    let httpPort ← optional d "http_port" none (orNull readInt)
    pure { family, encryption, loginVersion, https, httpPort }
  | _ => .error (.other "InvalidFieldValue")

/-- `Credentials` from a dict; both fields default to the empty string. -/
def Credentials.fromDict : Json → Except Exc Credentials
  | .obj d => do
    let username ← optional d "username" "" readStr
    let password ← optional d "password" "" readStr
    pure { username, password }
  | _ => .error (.other "InvalidFieldValue")

/-- `KeyPairDict` from a dict. -/
def KeyPair.fromDict : Json → Except Exc KeyPair
  | .obj d => do
    let priv ← required d "private" readStr
    let pub ← required d "public" readStr
    pure { priv, pub }
  | _ => .error (.other "InvalidFieldValue")

/-- `DeviceConfig.from_dict`.  A custom HTTP client is a Python object and never in the dict. -/
def DeviceConfig.fromDict : Json → Except Exc DeviceConfig
  | .obj d => do
    let host ← required d "host" readStr
    let timeout ← optional d "timeout" (some defaultTimeout) (orNull readInt)
    let portOverride ← optional d "port_override" none (orNull readInt)
    let credentials ← optional d "credentials" none (orNull Credentials.fromDict)
    let credentialsHash ← optional d "credentials_hash" none (orNull readStr)
    let batchSize ← optional d "batch_size" none (orNull readInt)
    let connectionType ← optional d "connection_type" defaultConnection ConnParams.fromDict
    let aesKeys ← optional d "aes_keys" none (orNull KeyPair.fromDict)
    pure { host, timeout, portOverride, credentials, credentialsHash, batchSize, connectionType, httpClient := none,
           aesKeys }
  | _ => .error (.other "InvalidFieldValue")

/-- `uses_http` (deviceconfig.py:158-162). -/
def DeviceConfig.usesHttp (c : DeviceConfig) : Bool :=
  c.connectionType.encryption != .xor || c.connectionType.https

end Kasa.Config
