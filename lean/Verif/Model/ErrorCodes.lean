import Verif.Py.Json
import Verif.Py.Monad
/-!
# SMART error codes and how responses are checked

Models `SmartErrorCode`, `SMART_RETRYABLE_ERRORS`, `SMART_AUTHENTICATION_ERRORS` (kasa/exceptions.py:62-202) and the
error checks of the protocols and transports.
-/

namespace Kasa.Codes

/-- The members of `SmartErrorCode` (exceptions.py:74-183), in order. -/
def smartErrorCodes : List (String × Int) :=
  [("SUCCESS", 0),
   ("SESSION_TIMEOUT_ERROR", 9999),
   ("MULTI_REQUEST_FAILED_ERROR", 1200),
   ("HTTP_TRANSPORT_FAILED_ERROR", 1112),
   ("LOGIN_FAILED_ERROR", 1111),
   ("HAND_SHAKE_FAILED_ERROR", 1100),
   ("TRANSPORT_UNKNOWN_CREDENTIALS_ERROR", 1003),
   ("TRANSPORT_NOT_AVAILABLE_ERROR", 1002),
   ("CMD_COMMAND_CANCEL_ERROR", 1001),
   ("NULL_TRANSPORT_ERROR", 1000),
   ("COMMON_FAILED_ERROR", -1),
   ("UNSPECIFIC_ERROR", -1001),
   ("UNKNOWN_METHOD_ERROR", -1002),
   ("JSON_DECODE_FAIL_ERROR", -1003),
   ("JSON_ENCODE_FAIL_ERROR", -1004),
   ("AES_DECODE_FAIL_ERROR", -1005),
   ("REQUEST_LEN_ERROR_ERROR", -1006),
   ("CLOUD_FAILED_ERROR", -1007),
   ("PARAMS_ERROR", -1008),
   ("INVALID_PUBLIC_KEY_ERROR", -1010),
   ("SESSION_PARAM_ERROR", -1101),
   ("QUICK_SETUP_ERROR", -1201),
   ("DEVICE_ERROR", -1301),
   ("DEVICE_NEXT_EVENT_ERROR", -1302),
   ("FIRMWARE_ERROR", -1401),
   ("FIRMWARE_VER_ERROR_ERROR", -1402),
   ("LOGIN_ERROR", -1501),
   ("TIME_ERROR", -1601),
   ("TIME_SYS_ERROR", -1602),
   ("TIME_SAVE_ERROR", -1603),
   ("WIRELESS_ERROR", -1701),
   ("WIRELESS_UNSUPPORTED_ERROR", -1702),
   ("SCHEDULE_ERROR", -1801),
   ("SCHEDULE_FULL_ERROR", -1802),
   ("SCHEDULE_CONFLICT_ERROR", -1803),
   ("SCHEDULE_SAVE_ERROR", -1804),
   ("SCHEDULE_INDEX_ERROR", -1805),
   ("COUNTDOWN_ERROR", -1901),
   ("COUNTDOWN_CONFLICT_ERROR", -1902),
   ("COUNTDOWN_SAVE_ERROR", -1903),
   ("ANTITHEFT_ERROR", -2001),
   ("ANTITHEFT_CONFLICT_ERROR", -2002),
   ("ANTITHEFT_SAVE_ERROR", -2003),
   ("ACCOUNT_ERROR", -2101),
   ("STAT_ERROR", -2201),
   ("STAT_SAVE_ERROR", -2202),
   ("DST_ERROR", -2301),
   ("DST_SAVE_ERROR", -2302),
   ("VACUUM_BATTERY_LOW", -3001),
   ("SYSTEM_ERROR", -40101),
   ("INVALID_ARGUMENTS", -40209),
   ("SESSION_EXPIRED", -40401),
   ("BAD_USERNAME", -40411),
   ("HOMEKIT_LOGIN_FAIL", -40412),
   ("DEVICE_BLOCKED", -40404),
   ("DEVICE_FACTORY", -40405),
   ("OUT_OF_LIMIT", -40406),
   ("OTHER_ERROR", -40407),
   ("SYSTEM_BLOCKED", -40408),
   ("NONCE_EXPIRED", -40409),
   ("FFS_NONE_PWD", -90000),
   ("TIMEOUT_ERROR", 40108),
   ("UNSUPPORTED_METHOD", -40106),
   ("ONE_SECOND_REPEAT_REQUEST", -40109),
   ("INVALID_NONCE", -40413),
   ("PROTOCOL_FORMAT_ERROR", -40210),
   ("IP_CONFLICT", -40321),
   ("DIAGNOSE_TYPE_NOT_SUPPORT", -69051),
   ("DIAGNOSE_TASK_FULL", -69052),
   ("DIAGNOSE_TASK_BUSY", -69053),
   ("DIAGNOSE_INTERNAL_ERROR", -69055),
   ("DIAGNOSE_ID_NOT_FOUND", -69056),
   ("DIAGNOSE_TASK_NULL", -69057),
   ("CLOUD_LINK_DOWN", -69060),
   ("ONVIF_SET_WRONG_TIME", -69061),
   ("CLOUD_NTP_NO_RESPONSE", -69062),
   ("CLOUD_GET_WRONG_TIME", -69063),
   ("SNTP_SRV_NO_RESPONSE", -69064),
   ("SNTP_GET_WRONG_TIME", -69065),
   ("LINK_UNCONNECTED", -69076),
   ("WIFI_SIGNAL_WEAK", -69077),
   ("LOCAL_NETWORK_POOR", -69078),
   ("CLOUD_NETWORK_POOR", -69079),
   ("INTER_NETWORK_POOR", -69080),
   ("DNS_TIMEOUT", -69081),
   ("DNS_ERROR", -69082),
   ("PING_NO_RESPONSE", -69083),
   ("DHCP_MULTI_SERVER", -69084),
   ("DHCP_ERROR", -69085),
   ("STREAM_SESSION_CLOSE", -69094),
   ("STREAM_BITRATE_EXCEPTION", -69095),
   ("STREAM_FULL", -69096),
   ("STREAM_NO_INTERNET", -69097),
   ("HARDWIRED_NOT_FOUND", -72101),
   ("INTERNAL_UNKNOWN_ERROR", -100000),
   ("INTERNAL_QUERY_ERROR", -100001)]

/-- `SmartErrorCode.INTERNAL_UNKNOWN_ERROR` (exceptions.py:181). -/
def internalUnknownError : Int := -100000
/-- `SmartErrorCode.INTERNAL_QUERY_ERROR` (exceptions.py:183). -/
def internalQueryError : Int := -100001
/-- `SmartErrorCode.JSON_DECODE_FAIL_ERROR` (exceptions.py:92). -/
def jsonDecodeFailError : Int := -1003
/-- `SmartErrorCode.LOGIN_ERROR` (exceptions.py:107). -/
def loginError : Int := -1501

/-- The value of an enum member by name (`SmartErrorCode.X`). -/
def codeOf (name : String) : Int := (Dict.get? smartErrorCodes name).getD 0

/-- `SMART_RETRYABLE_ERRORS` (exceptions.py:186-193). -/
def smartRetryableErrors : List Int :=
  ["TRANSPORT_NOT_AVAILABLE_ERROR", "HTTP_TRANSPORT_FAILED_ERROR", "UNSPECIFIC_ERROR",
   "SESSION_TIMEOUT_ERROR", "SESSION_EXPIRED", "INVALID_NONCE"].map codeOf

/-- `SMART_AUTHENTICATION_ERRORS` (exceptions.py:195-202). -/
def smartAuthenticationErrors : List Int :=
  ["LOGIN_ERROR", "LOGIN_FAILED_ERROR", "AES_DECODE_FAIL_ERROR", "HAND_SHAKE_FAILED_ERROR",
   "TRANSPORT_UNKNOWN_CREDENTIALS_ERROR", "HOMEKIT_LOGIN_FAIL"].map codeOf

/-- Result of the enum lookup. -/
inductive Lookup where
  | code (n : Int)
  | valueError
  | typeError
  deriving DecidableEq

/-- `SmartErrorCode(value)` for an integer (exceptions.py:72): `ValueError` when there is no such member. -/
def lookupInt (n : Int) : Lookup :=
  if n ∈ smartErrorCodes.map Prod.snd then .code n else .valueError

/-- `SmartErrorCode.from_int(raw)` (exceptions.py:68-72) on whatever the JSON response holds; `none` is an absent
key (`None`).  Booleans equal the integers 0 and 1; lists and dicts are unhashable, so `functools.cache` raises
`TypeError`. -/
def fromInt : Option Json → Lookup
  | some (.num n) => lookupInt n
  | some (.bool b) => lookupInt (if b then 1 else 0)
  | some (.arr _) | some (.obj _) => .typeError
  | none | some .null | some (.str _) => .valueError

/-- The `try: from_int ... except ValueError: INTERNAL_UNKNOWN_ERROR` block shared by smartprotocol.py:411-418,
aestransport.py:153-160, sslaestransport.py:157-165 and 175-186. -/
def readCode (raw : Option Json) : Except Exc Int :=
  match fromInt raw with
  | .code n => .ok n
  | .valueError => .ok internalUnknownError
  | .typeError => .error (.other "TypeError")

/-- The classification of a non-zero code: smartprotocol.py:432-436, aestransport.py:164-169,
sslaestransport.py:191-196, ssltransport.py:126-133. -/
def classify (code : Int) : Exc :=
  if code ∈ smartRetryableErrors then .retryable (some code)
  else if code ∈ smartAuthenticationErrors then .auth (some code)
  else .device (some code)

/-- `SmartProtocol._handle_response_error_code` with `raise_on_error=True` (smartprotocol.py:408-436); also
`SmartCamProtocol._handle_response_error_code` (smartcamprotocol.py:60-88). -/
def protocolCheck (raw : Option Json) : Except Exc Unit :=
  match readCode raw with
  | .error e => .error e
  | .ok code => if code = 0 then .ok () else .error (classify code)

/-- Same function with `raise_on_error=False` (smartprotocol.py:423-425): the error code replaces the result.
`none`: success, the result is left alone. -/
def protocolCheckNoRaise (raw : Option Json) : Except Exc (Option Int) :=
  match readCode raw with
  | .error e => .error e
  | .ok code => if code = 0 then .ok none else .ok (some code)

/-- `AesTransport._handle_response_error_code` (aestransport.py:152-169) and
`SslAesTransport._handle_response_error_code` (sslaestransport.py:186-196).  The state is whether a handshake is
required; an authentication error makes it so. -/
def aesCheck (raw : Option Json) : PyM Bool Unit := fun handshakeRequired =>
  match readCode raw with
  | .error e => (.error e, handshakeRequired)
  | .ok code =>
    if code = 0 then (.ok (), handshakeRequired)
    else
      match classify code with
      | .auth c => (.error (.auth c), true)
      | e => (.error e, handshakeRequired)

/-- `SslTransport._handle_response_error_code` (ssltransport.py:118-133): the enum lookup is not guarded, and
an authentication error resets the session.  The state is whether a login is required. -/
def sslCheck (raw : Option Json) : PyM Bool Unit := fun loginRequired =>
  -- `SmartErrorCode(...)` is called directly, so an unhashable value is a `ValueError` as well
  match fromInt raw with
  | .valueError | .typeError => (.error (.other "ValueError"), loginRequired)
  | .code code =>
    if code = 0 then (.ok (), loginRequired)
    else
      match classify code with
      | .auth c => (.error (.auth c), true)
      | e => (.error e, loginRequired)

end Kasa.Codes
