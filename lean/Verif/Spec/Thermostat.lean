import Verif.Model.Thermostat
import Verif.Lemmas.Num
/-!
# Specification: a thermostat that does what it is told
-/

namespace Kasa.ThermostatSpec
open Thermostat

/-- The thermostat, as its owner sees it: on unless frost protection is on. -/
structure Valve where
  on : Bool
  target : Num
  offset : Num
  deriving DecidableEq

/-- What the owner may do. -/
inductive Op where
  | state (on : Bool)
  | target (x : Num)
  | offset (x : Num)
  | frost (on : Bool)

/-- A temperature outside of the range, or not a number, is refused; setting a temperature switches the thermostat on. -/
noncomputable def Valve.apply (lo hi : Int) (v : Valve) : Op → Valve
  | .state on => { v with on }
  | .target x => open Classical in if InRange x lo hi then { v with on := true, target := x } else v
  | .offset x => open Classical in if InRange x (-10) 10 then { v with offset := x } else v
  | .frost on => { v with on := !on }

/-- The command of an operation when the library's data is `info`. -/
def send (info : Info) : Op → Except Exc Command
  | .state on => .ok (setState on)
  | .target x => setTargetTemperature info x
  | .offset x => Setters.setOffset x
  | .frost on => .ok (setFrost on)

/-- The device stores the fields it is sent. -/
def obey (info : Info) (c : Command) : Info :=
  if c.method = "set_device_info" then Dict.update info c.params else info

def step (info : Info) (op : Op) : Info :=
  match send info op with
  | .ok c => obey info c
  | .error _ => info

/-- What the device stores. -/
structure Holds (lo hi : Int) (info : Info) (v : Valve) : Prop where
  frost : Dict.get? info "frost_protection_on" = some (.num (.bool !v.on))
  target : Dict.get? info "target_temp" = some (.num v.target)
  offset : Dict.get? info "temp_offset" = some (.num v.offset)
  lo : Dict.get? info "min_control_temp" = some (.num (.int lo))
  hi : Dict.get? info "max_control_temp" = some (.num (.int hi))

/-- Is `x` not NaN?  The library lets NaN through. -/
def Op.sane : Op → Prop
  | .target x => x ≠ .nan
  | .offset x => x ≠ .nan
  | _ => True

/-- What a thermostat that is on does, given the states it reports: the states are looked for in this order. -/
def doing (states : List String) : Mode :=
  if states = [] then .idle
  else if "heating" ∈ states then .heating
  else if "progress_calibration" ∈ states then .calibrating
  else if "idle" ∈ states then .idle
  else if "off" ∈ states then .off
  else .unknown

end Kasa.ThermostatSpec
