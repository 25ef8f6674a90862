import Verif.Model.ThermostatModule
import Verif.Spec.Thermostat
/-!
# Specification: a thermostat operated by its module and by its parts
-/

namespace Kasa.ThermostatSpec
open Thermostat

/-- What the owner may do: operate the parts, or the thermostat as a whole. -/
inductive RoomOp where
  | part (op : Op)
  | state (on : Bool)
  | target (x : Num)
  | unit (u : String)

/-- The thermostat with the unit it shows. -/
structure Room where
  valve : Valve
  unit : String

/-- What the operations are to do. -/
noncomputable def Room.apply (lo hi : Int) (r : Room) : RoomOp → Room
  | .part op => { r with valve := r.valve.apply lo hi op }
  | .state on => { r with valve := r.valve.apply lo hi (.state on) }
  | .target x => { r with valve := r.valve.apply lo hi (.target x) }
  | .unit u => { r with unit := u }

/-- The command of an operation. -/
def sendRoom (p : Parts) (info : Info) : RoomOp → Except Exc Command
  | .part op => send info op
  | .state on => thSetState p on
  | .target x => thSetTarget p info x
  | .unit u => thSetUnit p u

/-- The device stores what it is sent. -/
def obeyRoom (info : Info) (c : Command) : Info :=
  if c.method = "set_device_info" ∨ c.method = "set_temperature_unit" then Dict.update info c.params else info

def stepRoom (p : Parts) (info : Info) (op : RoomOp) : Info :=
  match sendRoom p info op with
  | .ok c => obeyRoom info c
  | .error _ => info

/-- No NaN. -/
def RoomOp.sane : RoomOp → Prop
  | .part op => op.sane
  | .target x => x ≠ .nan
  | _ => True

end Kasa.ThermostatSpec
