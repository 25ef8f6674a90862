import Verif.Model.Exceptions
/-!
# Specification of the meaning of SMART error codes

Written down from the documentation of the codes, without the model.
-/

namespace Kasa.CodesSpec

/-- Session/transport hiccups: worth another try. -/
def Retryable (n : Int) : Prop := n = 1002 ∨ n = 1112 ∨ n = -1001 ∨ n = 9999 ∨ n = -40401 ∨ n = -40413

/-- Wrong credentials or keys. -/
def Authentication (n : Int) : Prop :=
  n = -1501 ∨ n = 1111 ∨ n = -1005 ∨ n = 1100 ∨ n = 1003 ∨ n = -40412

/-- The codes the library has a name for. -/
def documented : List Int :=
  [0, 9999, 1200, 1112, 1111, 1100, 1003, 1002, 1001, 1000, -1, -1001, -1002, -1003, -1004, -1005, -1006, -1007, -1008, -1010, -1101, -1201, -1301, -1302, -1401, -1402, -1501, -1601, -1602, -1603, -1701, -1702, -1801, -1802, -1803, -1804, -1805, -1901, -1902, -1903, -2001, -2002, -2003, -2101, -2201, -2202, -2301, -2302, -3001, -40101, -40209, -40401, -40411, -40412, -40404, -40405, -40406, -40407, -40408, -40409, -90000, 40108, -40106, -40109, -40413, -40210, -40321, -69051, -69052, -69053, -69055, -69056, -69057, -69060, -69061, -69062, -69063, -69064, -69065, -69076, -69077, -69078, -69079, -69080, -69081, -69082, -69083, -69084, -69085, -69094, -69095, -69096, -69097, -72101, -100000, -100001]

instance (n : Int) : Decidable (Retryable n) := by unfold Retryable; infer_instance
instance (n : Int) : Decidable (Authentication n) := by unfold Authentication; infer_instance

/-- The code reported to the caller: unknown codes are reported as -100000. -/
def reported (n : Int) : Int := if n ∈ documented then n else -100000

/-- What a response with error code `n` must lead to. -/
def expected (n : Int) : Except Exc Unit :=
  if n = 0 then .ok ()
  else if Retryable n then .error (.retryable (some n))
  else if Authentication n then .error (.auth (some n))
  else .error (.device (some (reported n)))

end Kasa.CodesSpec
