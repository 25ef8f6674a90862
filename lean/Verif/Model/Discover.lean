import Verif.Model.Xor
import Verif.Model.Factory
/-!
# UDP discovery (discover.py)
-/

namespace Kasa.Discover

open Config Factory Ops

/-! ## The new-style probe -/

/-- `struct.pack` of one unsigned field of `size` bytes, big endian; `none` is `struct.error`. -/
def packField (size n : Nat) : Option Bytes :=
  if n < 256 ^ size then some ((List.range size).map fun i => UInt8.ofNat (n / 256 ^ (size - 1 - i))) else none

/-- `struct.pack(">BBHHBBII", ..)` for a list of sizes and values. -/
def pack : List (Nat × Nat) → Option Bytes
  | [] => some []
  | (size, n) :: rest => do
    let a ← packField size n
    let b ← pack rest
    pure (a ++ b)

/-- `x[i:j] = v` for a slice of `j - i` bytes replaced by as many. -/
def assignSlice (x : Bytes) (i j : Nat) (v : Bytes) : Bytes := x.take i ++ v ++ x.drop j

/-- `_AesDiscoveryQuery.generate_query` (discover.py:197-230): `payload` is the encoded key, `secret` the four random
bytes, `crc32` is `binascii.crc32`. -/
def generateQuery (crc32 : Bytes → Nat) (payload secret : Bytes) : Option Bytes := do
  let header ← pack [(1, 2), (1, 0), (2, 1), (2, payload.length), (1, 17), (1, 0), (4, beValue secret), (4, 0x5A6B7C8D)]
  let query := header ++ payload
  let crc ← packField 4 (crc32 query)
  pure (assignSlice query 12 16 crc)

/-! ## Reading answers -/

/-- `EncryptionScheme` (discover.py:945-952). -/
structure EncryptionScheme where
  isSupportHttps : Bool
  encryptType : Option String
  httpPort : Option Int
  lv : Option Int

/-- `DiscoveryResult` (discover.py:964-986): the fields that decide.  `symSchm` is `encrypt_info.sym_schm`. -/
structure DiscoveryResult where
  deviceType : String
  deviceModel : String
  scheme : Option EncryptionScheme
  symSchm : Option String
  encryptType : Option (List String)

/-- What discovery relies on. -/
structure Deps where
  /-- `json_loads` of bytes or decoded text. -/
  loads : Bytes → Except Exc Json
  /-- `DiscoveryResult.from_dict`, generated by mashumaro. -/
  parse : Json → Except Exc DiscoveryResult
  /-- `int(text)`. -/
  toInt : String → Option Int
  /-- `str.lower`. -/
  lower : String → String

/-- A device built from an answer, without connecting.  `protocol` is `None` if `get_protocol` returned `None`. -/
structure Dev where
  cls : DevClass
  host : String
  protocol : Option (Proto × Transport)
  connection : ConnParams
  /-- The configuration given to the protocol. -/
  config : DeviceConfig
  deriving DecidableEq

section
variable (d : Deps)

/-- `except Exception as ex: raise KasaException(..)`. -/
def asKasa {α : Type} : Except Exc α → Except Exc α
  | .ok a => .ok a
  | .error e => .error (if e.isException then .kasa else e)

/-- `_get_discovery_json_legacy` (discover.py:724-733). -/
def jsonLegacy (data : Bytes) : Except Exc Json := asKasa (d.loads (Xor.decrypt data))

/-- `_get_discovery_json` (discover.py:791-801). -/
def jsonNew (data : Bytes) : Except Exc Json := asKasa (d.loads (data.drop 16))

/-- `_get_device_class` (discover.py:702-722). -/
def getDeviceClass (info : Json) : Except Exc DevClass := do
  if (← contains info "result") then
    let r ← d.parse (← item info "result")
    let https := match r.scheme with | some s => s.isSupportHttps | none => false
    match classFromFamily r.deviceType https false with
    | some c => pure c
    | none => .error .unsupported
  else
    let c ← SysInfo.classOf d.lower info
    pure (.iot c)

/-- `IotDevice._set_sys_info` (iotdevice.py:459-463): the features must be text. -/
def setSysInfo (sys : Json) : Except Exc Unit := do
  let features := orNone (← getOpt sys "feature")
  match features with
  | .str _ => pure ()
  | f => if f.truthy then .error (.other "AttributeError") else pure ()

/-- `IotDevice.update_from_discover_info` (iotdevice.py:445-457). -/
def fillIot (info : Json) : Except Exc Unit := do
  let sys ← (do
    if (← contains info "system") then
      let s ← getOpt (← item info "system") "get_sysinfo"
      pure (orNone s)
    else pure .null)
  if sys.truthy then setSysInfo sys
  else
    match (← item info "device_model") with
    | .str _ => setSysInfo info
    | _ => .error (.other "AttributeError")

/-- `update_from_discover_info` of the device class; the newer one only stores its argument (smartdevice.py:729-735). -/
def fill (cls : DevClass) (info : Json) : Except Exc Unit :=
  match cls with
  | .iot _ => fillIot info
  | _ => .ok ()

/-- The login version out of an answer.  Simplified: Python keeps any value, only numbers are kept here. -/
def asLoginVersion : Json → Option Int
  | .num n => some n
  | _ => none

/-- `_get_device_instance_legacy` (discover.py:735-757).  Logging is left out. -/
def instanceLegacy (info : Json) (config : DeviceConfig) : Except Exc Dev := do
  let cls ← getDeviceClass d info
  let sys ← SysInfo.extract info
  let type ← getOr sys "mic_type" (orNone (← getOpt sys "type"))
  let version := orNone (← getOpt sys "stream_version")
  let conn ← fromValues type (.str "XOR") (if type = .str "IOT.IPCAMERA" then asLoginVersion version else none)
    (some (decide (type = .str "IOT.IPCAMERA"))) none
  let config := { config with connectionType := conn }
  fill cls info
  pure { cls, host := config.host, protocol := getProtocol config false, connection := conn, config }

/-- The encryption of an answer (discover.py:817-820). -/
def encryptionOf (r : DiscoveryResult) (s : EncryptionScheme) : Option String :=
  match s.encryptType with
  | some e => if e ≠ "" then some e else (match r.symSchm with | some x => some x | none => some e)
  | none => r.symSchm

/-- `max([int(i) for i in et])` for a list that is not empty (discover.py:827). -/
def maxInt : List String → Except Exc Int
  | [] => .error (.other "ValueError")
  | [x] => match d.toInt x with | some n => .ok n | none => .error (.other "ValueError")
  | x :: y :: rest => do
    let n ← match d.toInt x with | some n => .ok n | none => .error (.other "ValueError")
    let m ← maxInt (y :: rest)
    pure (max n m)

/-- The login version of an answer (discover.py:822-827); 0 counts as missing. -/
def loginVersionOf (r : DiscoveryResult) (s : EncryptionScheme) : Except Exc (Option Int) :=
  match s.lv with
  | some n => if n ≠ 0 then .ok (some n) else (match r.encryptType with
    | some (x :: xs) => do pure (some (← maxInt d (x :: xs)))
    | _ => .ok (some n))
  | none =>
    match r.encryptType with
    | some (x :: xs) => do pure (some (← maxInt d (x :: xs)))
    | _ => .ok none

/-- `_get_connection_parameters` (discover.py:803-842). -/
def connectionParameters (r : DiscoveryResult) : Except Exc ConnParams :=
  match r.scheme with
  | none => .error .unsupported
  | some s => do
    let encryption := encryptionOf r s
    let version ← loginVersionOf d r s
    match encryption with
    | some e => if e ≠ "" then fromValues (.str r.deviceType) (.str e) version (some s.isSupportHttps) s.httpPort
                else .error .unsupported
    | none => .error .unsupported

/-- `except Exception: raise UnsupportedDeviceError` around the parsing (discover.py:852-869). -/
def parseResult (info : Json) : Except Exc DiscoveryResult :=
  match (do d.parse (← item info "result")) with
  | .ok r => .ok r
  | .error e => .error (if e.isException then .unsupported else e)

/-- `except KasaException: raise UnsupportedDeviceError` around the parameters (discover.py:884-895). -/
def unsupportedParams (r : DiscoveryResult) : Except Exc ConnParams :=
  match connectionParameters d r with
  | .ok c => .ok c
  | .error e => .error (if e.isKasa then .unsupported else e)

/-- `_get_device_instance` (discover.py:844-931).  The decryption of additional data and logging are left out: their
failures are swallowed. -/
def instanceNew (info : Json) (config : DeviceConfig) : Except Exc Dev := do
  let r ← parseResult d info
  let conn ← unsupportedParams d r
  let config := { config with connectionType := conn }
  match classFromFamily r.deviceType conn.https false with
  | none => .error .unsupported
  | some cls =>
    match getProtocol config false with
    | none => .error .unsupported
    | some p => pure { cls, host := config.host, protocol := some p, connection := conn, config }
end

/-! ## Receiving datagrams -/

/-- A datagram: contents and sender. -/
structure Datagram where
  data : Bytes
  ip : String
  port : Nat
  deriving DecidableEq

/-- The arguments of discovery (discover.py:243-256).  The base configuration holds credentials and timeout; `raw` is the
`on_discovered_raw` callback's outcome. -/
structure Options where
  target : String
  port : Option Nat
  base : DeviceConfig
  onDiscovered : Bool
  onUnsupported : Bool
  raw : Datagram → Except Exc Unit

/-- `DISCOVERY_PORT_2` (discover.py:424). -/
def discoveryPort2 : Nat := 20002

/-- `port or Discover.DISCOVERY_PORT` (discover.py:263). -/
def Options.discoveryPort (o : Options) : Nat :=
  match o.port with
  | some p => if p ≠ 0 then p else 9999
  | none => 9999

/-- The state of `_DiscoverProtocol`. -/
structure St where
  seen : List String
  discovered : Dict String Dev
  unsupported : Dict String Exc
  invalid : Dict String Exc
  targetDiscovered : Bool
  /-- `discover_task.cancel()` was called. -/
  cancelled : Bool
  /-- Calls of `on_discovered`. -/
  found : List Dev
  /-- Calls of `on_unsupported`, by host. -/
  reported : List String
  /-- Exceptions that escaped from `datagram_received` (asyncio logs them). -/
  escaped : List (String × Exc)

def St.init : St := ⟨[], [], [], [], false, false, [], [], []⟩

section
variable (d : Deps) (o : Options)

/-- The `try` of `datagram_received` (discover.py:355-377): `none` if the port is not a discovery port. -/
def handle (dg : Datagram) : Option (Except Exc Dev) :=
  let config := { o.base with host := dg.ip, portOverride := o.port.map fun p => (p : Int) }
  if dg.port = o.discoveryPort then
    some (do
      let info ← jsonLegacy d dg.data
      o.raw dg
      instanceLegacy d info config)
  else if dg.port = discoveryPort2 then
    some (do
      let info ← jsonNew d dg.data
      o.raw dg
      instanceNew d info config)
  else none

/-- `_handle_discovered_event` (discover.py:398-403). -/
def discoveredEvent (s : St) : St :=
  if o.target ∈ s.seen then { s with targetDiscovered := true, cancelled := true } else s

/-- The `except` clauses and the end of `datagram_received` (discover.py:378-396). -/
def record (s : St) (ip : String) : Except Exc Dev → St
  | .ok dev =>
    discoveredEvent o
      { s with discovered := s.discovered.set ip dev, found := if o.onDiscovered then s.found ++ [dev] else s.found }
  | .error e =>
    if e = .unsupported then
      discoveredEvent o
        { s with unsupported := s.unsupported.set ip e,
                 reported := if o.onUnsupported then s.reported ++ [ip] else s.reported }
    else if e.isKasa then discoveredEvent o { s with invalid := s.invalid.set ip e }
    else { s with escaped := s.escaped ++ [(ip, e)] }

/-- `datagram_received` (discover.py:338-396). -/
def received (s : St) (dg : Datagram) : St :=
  if dg.ip ∈ s.seen then s
  else
    match handle d o dg with
    | none => { s with seen := s.seen ++ [dg.ip] }
    | some r => record o { s with seen := s.seen ++ [dg.ip] } dg.ip r

/-- Datagrams in the order of arrival. -/
def receiveAll (s : St) (dgs : List Datagram) : St := dgs.foldl (received d o) s

/-- `do_discover` (discover.py:323-336): for each round, what arrives while it sleeps.  Returns the rounds sent. -/
def doDiscover (s : St) : List (List Datagram) → Nat × St
  | [] => (0, s)
  | dgs :: rest =>
    if o.target ∈ s.seen then (0, s)
    else
      let s' := receiveAll d o s dgs
      if s'.cancelled then (1, s')
      else
        let (n, s'') := doDiscover s' rest
        (n + 1, s'')

/-- The outcome of a search for one host. -/
inductive Single where
  | device (dev : Dev)
  /-- `on_unsupported` was called and `None` returned. -/
  | reported
  | raised (e : Exc)
  deriving DecidableEq

/-- What `discover_single` returns (discover.py:594-607).  `TimeoutError` is kasa's. -/
def singleResult (s : St) (host : String) : Single :=
  match s.discovered.get? o.target with
  | some dev =>
    match dev.protocol with
    | some _ => .device { dev with host }
    | none => .raised (.other "AttributeError")
  | none =>
    match s.unsupported.get? o.target with
    | some e => if o.onUnsupported then .reported else .raised e
    | none =>
      match s.invalid.get? o.target with
      | some e => .raised e
      | none => .raised .timeout

/-- `discover_single` after the host was resolved to `o.target` (discover.py:573-607).  The search itself reports
nothing. -/
def discoverSingle (host : String) (rounds : List (List Datagram)) : Nat × Single :=
  let r := doDiscover d { o with onDiscovered := false, onUnsupported := false } St.init rounds
  (r.1, singleResult o r.2 host)
end

/-! ## Discovering all -/

/-- Closing the devices found (discover.py:503-504), in order, until one fails.  Returns the hosts whose protocol's
`close()` was called. -/
def closeAll (close : String → Except Exc Unit) : Dict String Dev → Except Exc Unit × List String
  | [] => (.ok (), [])
  | (ip, dev) :: rest =>
    match dev.protocol with
    | none => (.error (.other "AttributeError"), [])
    | some _ =>
      match close ip with
      | .error e => (.error e, [ip])
      | .ok _ =>
        let (r, hosts) := closeAll close rest
        (r, ip :: hosts)

/-- The end of `discover` (discover.py:499-511): `wait` is how waiting ended (the search, its cancellation, and the
callbacks' exceptions).  Returns the outcome and the hosts closed. -/
def finish (close : String → Except Exc Unit) (wait : Except Exc Unit) (s : St) :
    Except Exc (Dict String Dev) × List String :=
  match wait with
  | .ok _ => (.ok s.discovered, [])
  | .error e =>
    if e.isKasa ∨ e = .base then
      match closeAll close s.discovered with
      | (.ok _, hosts) => (.error e, hosts)
      | (.error e', hosts) => (.error e', hosts)
    else (.error e, [])

end Kasa.Discover
