import Verif.Model.LightReading
import Verif.Model.SmartProtocol
/-!
# Model: the calls that set a light, as queries
-/

namespace Kasa.LightCalls
open Lights LightReading

/-- A number as it is sent.  Simplified: only integers and truth values are sent; other numbers do not occur in what is proved. -/
def numJson : Num → Json
  | .int n => .num n
  | .bool b => .bool b
  | _ => .null

mutual
/-- A value as it is sent (`json_dumps` of the request, smartprotocol.py:101-125). -/
def toJson : PyV → Json
  | .num n => numJson n
  | .str s => .str s
  | .arr xs => .arr (toJsons xs)
  | .obj kvs => .obj (toMembers kvs)
def toJsons : List PyV → List Json
  | [] => []
  | x :: xs => toJson x :: toJsons xs
def toMembers : List (String × PyV) → List (String × Json)
  | [] => []
  | kv :: l => (kv.1, toJson kv.2) :: toMembers l
end

mutual
/-- A value in an answer, as the properties of a light read it. -/
def ofJson : Json → PyV
  | .null => .num (.other false)
  | .bool b => .num (.bool b)
  | .num n => .num (.int n)
  | .str s => .str s
  | .arr xs => .arr (ofJsons xs)
  | .obj kvs => .obj (ofMembers kvs)
def ofJsons : List Json → List PyV
  | [] => []
  | x :: xs => ofJson x :: ofJsons xs
def ofMembers : List (String × Json) → List (String × PyV)
  | [] => []
  | kv :: l => (kv.1, ofJson kv.2) :: ofMembers l
end

variable {σ : Type} (t : Smart.Transport σ)

/-- `SmartModule.call` (smart/smartmodule.py:162-167), `_query_helper` (smart/smartdevice.py:694-695) and `query` with its three retries
(smartprotocol.py:132-135). -/
def call (c : Command) : PyM (Smart.St σ) (Dict String Smart.Entry) := Smart.query t (.dict [(c.method, .obj (toMembers c.params))]) 3

/-- A method that sends the command it computes, or raises before (brightness.py:52-76, color.py:58-99, colortemperature.py:59-71,
smart/modules/light.py:117-131, smartdevice.py:714-727).  `send` are the methods as modelled in `Verif.Model.Lights`. -/
def perform (send : Except Exc Command) : PyM (Smart.St σ) (Dict String Smart.Entry) := do
  let c ← PyM.lift send
  call t c

/-- `_info` after an update that got `get_device_info` (smartdevice.py:256-259, 180-198): an error that was answered raises. -/
def infoOf (answers : Dict String Smart.Entry) : Except Exc Info :=
  match Dict.get? answers "get_device_info" with
  | some (.value (.obj kvs)) => .ok (ofMembers kvs)
  | _ => .error .kasa

end Kasa.LightCalls
