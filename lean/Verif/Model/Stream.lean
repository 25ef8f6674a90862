import Verif.Model.JsonText
import Verif.Model.Config
import Verif.Py.Ops
/-!
# Camera streams (smartcam/modules/camera.py) and the credentials hash of cameras (transports/sslaestransport.py)
-/

namespace Kasa.Stream
open Config JsonText

/-! ## Credentials in a text -/

/-- `_create_b64_credentials` (sslaestransport.py:140-143). -/
def b64Credentials (lib : Lib) (c : Credentials) : String :=
  String.ofList (B64.encode (utf8 (dumps lib (.obj [("un", .str c.username), ("pwd", .str c.password)]))))

/-- `credentials_hash` of a transport (sslaestransport.py:145-154); `creds` are the transport's credentials, which the
constructor makes the empty ones if neither credentials nor a hash was given (sslaestransport.py:92-96). -/
def credentialsHash (lib : Lib) (creds : Option Credentials) (hash : Option String) : Option String :=
  match creds with
  | some c =>
    if c = ⟨"", ""⟩ then none
    else if c.password ≠ "" ∧ c.username ≠ "" then some (b64Credentials lib c)
    else none
  | none =>
    match hash with
    | some h => if h ≠ "" then some h else none
    | none => none

/-- `base64.b64decode(credentials_hash.encode()).decode()` and `json_loads` (camera.py:75-83): `none` if one of them raises. -/
def decodeHash (hash : String) : Option Json := do
  let b ← B64.decode hash.toList
  let text ← fromUtf8 b
  loads text

/-- A value of the decoded hash, as an argument of `Credentials`: a non-empty text, nothing, or something else. -/
inductive Part where
  | text (s : String)
  | falsy
  | other
  deriving DecidableEq

/-- `decoded.get(k)`. -/
def part (j : Json) (k : String) : Part :=
  match j.get? k with
  | some (.str s) => if s = "" then .falsy else .text s
  | some v => if v.truthy then .other else .falsy
  | none => .falsy

/-- The credentials in a hash (camera.py:74-87).  A hash that is no object raises outside of the `try` (line 84).
Simplified: credentials that are no texts raise here instead of in `quote_plus`. -/
def hashCredentials (hash : String) : Except Exc (Option Credentials) :=
  match decodeHash hash with
  | none => .ok none
  | some (.obj d) =>
    match part (.obj d) "un", part (.obj d) "pwd" with
    | .text u, .text p => .ok (some ⟨u, p⟩)
    | .falsy, _ => .ok none
    | _, .falsy => .ok none
    | _, _ => .error (.other "TypeError")
  | some _ => .error (.other "AttributeError")

/-- `_get_credentials` (camera.py:68-87). -/
def getCredentials (cfg : DeviceConfig) : Except Exc (Option Credentials) :=
  match cfg.credentials with
  | some c => .ok (some c)
  | none =>
    match cfg.credentialsHash with
    | some h => if h = "" then .ok none else hashCredentials h
    | none => .ok none

/-! ## URLs -/

/-- A hexadecimal digit, upper case. -/
def hexUpper (n : Nat) : Char := "0123456789ABCDEF".toList.getD n '0'

/-- The bytes that `urllib.parse.quote` never escapes: letters, digits and `_.-~`. -/
def isSafe (b : UInt8) : Bool :=
  let n := b.toNat
  (48 ≤ n && n ≤ 57) || (65 ≤ n && n ≤ 90) || (97 ≤ n && n ≤ 122) || n == 95 || n == 46 || n == 45 || n == 126

/-- `quote_plus` of a byte (urllib.parse): a space is a plus. -/
def quoteByte (b : UInt8) : List Char :=
  if isSafe b then [Char.ofNat b.toNat]
  else if b = 32 then ['+']
  else ['%', hexUpper (b.toNat / 16), hexUpper (b.toNat % 16)]

/-- `quote_plus` (urllib.parse). -/
def quotePlus (s : String) : List Char := (utf8 s).flatMap quoteByte

/-- `StreamResolution` (camera.py:23-27). -/
inductive Resolution where
  | hd | sd
  deriving DecidableEq, Repr

/-- The stream of a resolution (camera.py:106-109). -/
def streamName : Resolution → String
  | .hd => "stream1"
  | .sd => "stream2"

/-- `LOCAL_STREAMING_PORT` (camera.py:19). -/
def streamingPort : String := "554"

/-- `ONVIF_PORT` (camera.py:20). -/
def onvifPort : String := "2020"

/-- The URL with its parts (camera.py:119-122). -/
def rtspUrl (c : Credentials) (host : String) (r : Resolution) : List Char :=
  "rtsp://".toList ++ quotePlus c.username ++ ':' :: quotePlus c.password ++ '@' :: host.toList ++ ':' ::
    streamingPort.toList ++ '/' :: (streamName r).toList

/-- `stream_rtsp_url` (camera.py:89-122).  `Credentials` has no truth value of its own: an object is true. -/
def streamRtspUrl (hubChild : Bool) (cfg : DeviceConfig) (given : Option Credentials) (r : Resolution) :
    Except Exc (Option (List Char)) :=
  if hubChild then .ok none
  else do
    let c ← match given with
      | some c => .ok (some c)
      | none => getCredentials cfg
    match c with
    | none => pure none
    | some c => if c.username = "" ∨ c.password = "" then pure none else pure (some (rtspUrl c cfg.host r))

/-- `onvif_url` (camera.py:124-129). -/
def onvifUrl (hubChild : Bool) (cfg : DeviceConfig) : Option (List Char) :=
  if hubChild then none else some ("http://".toList ++ cfg.host.toList ++ ':' :: onvifPort.toList ++ "/onvif/device_service".toList)

end Kasa.Stream
