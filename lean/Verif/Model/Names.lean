import Verif.Model.IotDevice
import Verif.Py.Text
/-!
# Names, Wi-Fi networks and credentials on their way to and from the device

Models `alias`, `ssid`, `set_alias`, `wifi_scan`, `wifi_join` and `update_credentials` of SMART devices
(smart/smartdevice.py:597-602, 697-702, 737-821), and the same of legacy devices (iot/iotdevice.py:485-492, 661-695) and
cameras (smartcam/smartcamdevice.py:260-272).  The protocol is an environment with an arbitrary state.  Logging is omitted.
-/

namespace Kasa.Names
open PyM Ops

/-- The environment: `protocol.query(request, retry_count)`; `none` is the default of the latter. -/
structure Env (σ : Type) where
  query : Json → Option Nat → σ → Except Exc Json × σ

/-- The environment's state and the requests made so far. -/
structure St (σ : Type) where
  world : σ
  sent : List (Json × Option Nat) := []

/-- `base64.b64encode(s.encode()).decode()`. -/
def b64 (s : String) : Json := .str (String.ofList (B64.encode (utf8 s)))

/-- `base64.b64decode(x).decode()`: only ASCII strings are accepted. -/
def unb64 (x : Json) : Except Exc String :=
  match x with
  | .str s =>
    if s.toList.all (fun c => c.toNat < 128) then
      match B64.decode s.toList with
      | none => .error (.other "binascii.Error")
      | some b =>
        match fromUtf8 b with
        | none => .error (.other "UnicodeDecodeError")
        | some t => .ok t
    else .error (.other "ValueError")
  | _ => .error (.other "TypeError")

/-- `for x in y`. -/
def iter (y : Json) : Except Exc (List Json) :=
  match y with
  | .arr xs => .ok xs
  | .obj kvs => .ok (kvs.map fun kv => .str kv.1)
  | .str s => .ok (s.toList.map fun c => .str (String.ofList [c]))
  | _ => .error (.other "TypeError")

section
variable {σ : Type} (env : Env σ)

/-- `self.protocol.query(request, retry_count)`. -/
def query (request : Json) (retry : Option Nat := none) : PyM (St σ) Json := fun s =>
  ((env.query request retry s.world).1,
    { s with world := (env.query request retry s.world).2, sent := s.sent ++ [(request, retry)] })

/-! ## SMART devices -/

/-- `SmartDevice.alias` (smartdevice.py:597-602); `info` is `_info`, a dict. -/
def alias (info : List (String × Json)) : Except Exc (Option String) :=
  match Dict.get? info "nickname" with
  | none => .ok none
  | some nickname => if nickname.truthy then (unb64 nickname).map some else .ok none

/-- `SmartDevice.set_alias` (smartdevice.py:817-821). -/
def setAlias (a : String) : PyM (St σ) Json :=
  query env (.obj [("set_device_info", .obj [("nickname", b64 a)])])

/-- `SmartDevice.ssid` (smartdevice.py:697-702). -/
def ssid (info : List (String × Json)) : Except Exc String :=
  match Dict.get? info "ssid" with
  | none => .ok "No SSID"
  | some x => if x.truthy then unb64 x else .ok "No SSID"

/-- `WifiNetwork` (device.py:134-147) as a SMART device fills it. -/
structure Network where
  ssid : String
  cipherType : Json
  keyType : Json
  channel : Json
  signalLevel : Json
  bssid : Json
  deriving DecidableEq

/-- `_net_for_scan_info` (smartdevice.py:740-748). -/
def netForScanInfo (res : Json) : Except Exc Network := do
  let ssid ← unb64 (← item res "ssid")
  let cipherType ← item res "cipher_type"
  let keyType ← item res "key_type"
  let channel ← item res "channel"
  let signalLevel ← item res "signal_level"
  let bssid ← item res "bssid"
  pure { ssid, cipherType, keyType, channel, signalLevel, bssid }

/-- The networks in an answer (smartdevice.py:753-755). -/
def networks (resp : Json) : Except Exc (List Network) := do
  let xs ← iter (← item (← item resp "get_wireless_scan_info") "ap_list")
  xs.mapM netForScanInfo

/-- `SmartDevice.wifi_scan` (smartdevice.py:737-756). -/
def wifiScan : PyM (St σ) (List Network) := do
  let resp ← query env (.obj [("get_wireless_scan_info", .obj [("start_index", .num 0)])])
  lift (networks resp)

/-- The payload of `wifi_join` (smartdevice.py:772-787). -/
def joinPayload (user pass ssid password keytype : String) (time : Json) : Json :=
  .obj [("account", .obj [("username", b64 user), ("password", b64 pass)]),
    ("wireless", .obj [("key_type", .str keytype), ("password", b64 password), ("ssid", b64 ssid)]),
    ("time", time)]

/-- `SmartDevice.wifi_join` (smartdevice.py:758-800); `state` is `internal_state`, a dict. -/
def wifiJoin (credentials : Option (String × String)) (state : List (String × Json)) (ssid password keytype : String) :
    PyM (St σ) Json :=
  match credentials with
  | none => raise (.auth none)
  | some (user, pass) =>
    match Dict.get? state "get_device_time" with
    | none => raise (.other "KeyError")
    | some time =>
      tryExcept (query env (.obj [("set_qs_info", joinPayload user pass ssid password keytype time)]) (some 0))
        fun ex =>
          if ex.isDeviceError then raise ex
          else if ex.isKasa then pure (.obj [])
          else raise ex

/-- `SmartDevice.update_credentials` (smartdevice.py:802-815). -/
def updateCredentials (state : List (String × Json)) (user pass : String) : PyM (St σ) Json :=
  match Dict.get? state "get_device_time" with
  | none => raise (.other "KeyError")
  | some time =>
    query env (.obj [("set_qs_info",
      .obj [("account", .obj [("username", b64 user), ("password", b64 pass)]), ("time", time)])])

/-! ## Legacy devices -/

/-- `IotDevice.alias` (iotdevice.py:484-488) for the dict `_sys_info`. -/
def legacyAlias (sysinfo : List (String × Json)) : Option Json := Dict.get? sysinfo "alias"

/-- `IotDevice._query_helper` (iotdevice.py:246-284) with the requests recorded. -/
def legacyQuery (target cmd : String) (arg : Json) (childIds : Option Json) : PyM (St σ) Json := fun s =>
  (Iot.queryHelper (fun request => (env.query request none s.world).1) target cmd (some arg) childIds,
    (query env (Iot.createRequest target cmd (some arg) childIds) none s).2)

/-- `IotDevice.set_alias` (iotdevice.py:490-492); sockets of a strip name their id. -/
def legacySetAlias (childIds : Option Json) (a : String) : PyM (St σ) Json :=
  legacyQuery env "system" "set_dev_alias" (.obj [("alias", .str a)]) childIds

/-- First on `netif`, then, after a `KasaException`, on `softaponboarding` (iotdevice.py:667-673, 688-695). -/
def eitherTarget (cmd : String) (arg : Json) : PyM (St σ) Json :=
  tryExcept (legacyQuery env "netif" cmd arg none) fun ex =>
    if ex.isKasa then legacyQuery env "smartlife.iot.common.softaponboarding" cmd arg none else raise ex

/-- `WifiNetwork(**x)` (iotdevice.py:678, device.py:134-147): unknown or missing names raise `TypeError`. -/
def legacyNetwork (x : Json) : Except Exc (List (String × Json)) :=
  match x with
  | .obj kvs =>
    if kvs.all (fun kv => ["ssid", "key_type", "cipher_type", "bssid", "channel", "rssi", "signal_level"].contains kv.1)
        && Dict.has kvs "ssid" && Dict.has kvs "key_type" then .ok kvs
    else .error (.other "TypeError")
  | _ => .error (.other "TypeError")

/-- The networks in an answer (iotdevice.py:675-678). -/
def legacyNetworks (info : Json) : Except Exc (List (List (String × Json))) := do
  if (← contains info "ap_list") then do
    let xs ← iter (← item info "ap_list")
    xs.mapM legacyNetwork
  else .error .kasa

/-- `IotDevice.wifi_scan` (iotdevice.py:661-678). -/
def legacyScan : PyM (St σ) (List (List (String × Json))) := do
  let info ← eitherTarget env "get_scaninfo" (.obj [("refresh", .num 1)])
  lift (legacyNetworks info)

/-- `IotDevice.wifi_join` (iotdevice.py:680-695); `toInt` is Python's `int(keytype)`. -/
def legacyJoin (toInt : String → Option Int) (ssid password keytype : String) : PyM (St σ) Json :=
  match toInt keytype with
  | none => raise (.other "ValueError")
  | some k => eitherTarget env "set_stainfo" (.obj [("ssid", .str ssid), ("password", .str password), ("key_type", .num k)])

/-! ## Cameras -/

/-- `mappings.get(k, k)` (smartcamdevice.py:226-235). -/
def camKey (k : String) : String :=
  (Dict.get? [("device_model", "model"), ("device_alias", "alias"), ("sw_version", "fw_ver"), ("hw_version", "hw_ver"),
    ("hw_id", "hwId"), ("dev_id", "device_id")] k).getD k

/-- `SmartCamDevice._map_info` (smartcamdevice.py:223-235) on `basic_info`: keys are renamed in order. -/
def mapInfo (basic : List (String × Json)) : List (String × Json) :=
  basic.foldl (fun d kv => Dict.set d (camKey kv.1) kv.2) []

/-- `SmartCamDevice.alias` (smartcamdevice.py:259-264) for `_info`. -/
def cameraAlias (info : List (String × Json)) : Option Json := Dict.get? info "alias"

/-- `SmartCamDevice.set_alias` (smartcamdevice.py:266-272). -/
def cameraSetAlias (a : String) : PyM (St σ) Json :=
  query env (.obj [("setDeviceAlias", .obj [("system", .obj [("sys", .obj [("dev_alias", .str a)])])])])

end
end Kasa.Names
