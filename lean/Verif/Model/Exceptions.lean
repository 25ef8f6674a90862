/-!
# The exception hierarchy

Models `kasa/exceptions.py` 14-58 and the parts of Python's hierarchy the code distinguishes.
-/

deriving instance DecidableEq for Except

namespace Kasa

/-- The exception classes the code distinguishes.  `code` is `DeviceError.error_code`
(exceptions.py:41-51), an integer or absent. -/
inductive Exc where
  /-- `KasaException` itself (exceptions.py:11). -/
  | kasa
  /-- `kasa.TimeoutError` (exceptions.py:15). -/
  | timeout
  /-- `_ConnectionError` (exceptions.py:25). -/
  | connection
  /-- `UnsupportedDeviceError` (exceptions.py:29). -/
  | unsupported
  /-- `DeviceError` itself (exceptions.py:38). -/
  | device (code : Option Int)
  /-- `AuthenticationError` (exceptions.py:54), a `DeviceError`. -/
  | auth (code : Option Int)
  /-- `_RetryableError` (exceptions.py:58), a `DeviceError`. -/
  | retryable (code : Option Int)
  /-- any other `Exception` (e.g. `KeyError`, `ValueError`). -/
  | other (name : String)
  /-- a `BaseException` that is not an `Exception`: `CancelledError`, `KeyboardInterrupt`, ... -/
  | base
  deriving DecidableEq, Repr

namespace Exc

/-- `isinstance(e, KasaException)`. -/
def isKasa : Exc → Bool
  | kasa | timeout | connection | unsupported | device _ | auth _ | retryable _ => true
  | other _ | base => false

/-- `isinstance(e, DeviceError)`. -/
def isDeviceError : Exc → Bool
  | device _ | auth _ | retryable _ => true
  | _ => false

/-- `isinstance(e, Exception)`. -/
def isException : Exc → Bool
  | base => false
  | _ => true

/-- `DeviceError.error_code`. -/
def code : Exc → Option Int
  | device c | auth c | retryable c => c
  | _ => none

end Exc
end Kasa
