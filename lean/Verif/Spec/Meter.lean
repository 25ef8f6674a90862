import Verif.Model.Meter
import Verif.Spec.Emeter
import Verif.Spec.IotDevice
/-!
# What energy meters are asked, answer and claim
-/

namespace Kasa.MeterSpec

/-- The request for a command of a service of the device, or of one of its sockets. -/
def request (module : String) (socket : Option String) (cmd : String) (args : List (String × Json)) : Json :=
  match socket with
  | none => .obj [(module, .obj [(cmd, .obj args)])]
  | some id => .obj [("context", .obj [("child_ids", .arr [.str id])]), (module, .obj [(cmd, .obj args)])]

/-- A number given, or the current one. -/
def orNow (given : Option Int) (now : Int) : Int :=
  match given with
  | some n => n
  | none => now

/-- The questions. -/
inductive Question where
  | days (year month : Int)
  | months (year : Int)
  | status
  | eraseEnergy
  | eraseUsage

/-- How a question is asked. -/
def ask (module : String) (socket : Option String) : Question → Json
  | .days y m => request module socket "get_daystat" [("year", .num y), ("month", .num m)]
  | .months y => request module socket "get_monthstat" [("year", .num y)]
  | .status => request module socket "get_realtime" []
  | .eraseEnergy => request module socket "erase_emeter_stat" []
  | .eraseUsage => request module socket "erase_runtime_stat" []

/-- The command of a question. -/
def command : Question → String
  | .days _ _ => "get_daystat"
  | .months _ => "get_monthstat"
  | .status => "get_realtime"
  | .eraseEnergy => "erase_emeter_stat"
  | .eraseUsage => "erase_runtime_stat"

/-- The device answered the question with these values. -/
def Answered (module : String) (q : Question) (answer : Except Exc Json) (values : List (String × Json)) : Prop :=
  ∃ response, answer = .ok response ∧ IotSpec.Proper response ∧ IotSpec.Accepted module (command q) response (.obj values)

/-- The energy of each reported period, as last reported, in the unit asked for; and nothing for other periods. -/
def EnergyBy (period : String) (kwh : Bool) (entries : List EmeterSpec.Entry) (stats : List (Rat × Rat)) : Prop :=
  Dict.WF stats ∧ ∀ k, Dict.get? stats k = ((EmeterSpec.latest period k entries).bind EmeterSpec.energyWh).map (EmeterSpec.inUnit kwh)

/-- The minutes of use of each reported period, as last reported. -/
def UseBy (period : String) (entries : List EmeterSpec.Entry) (stats : List (Rat × Rat)) : Prop :=
  Dict.WF stats ∧ ∀ k, Dict.get? stats k = (EmeterSpec.latest period k entries).bind fun e => Dict.get? e "time"

/-- What some socket reported for a period, added up. -/
def EnergySum (period : String) (kwh : Bool) (sockets : List (List EmeterSpec.Entry)) (stats : List (Rat × Rat)) : Prop :=
  ∀ k, ((∃ d ∈ sockets, ((EmeterSpec.latest period k d).bind EmeterSpec.energyWh).isSome = true) → Dict.get? stats k =
      some ((sockets.map fun d => (((EmeterSpec.latest period k d).bind EmeterSpec.energyWh).map (EmeterSpec.inUnit kwh)).getD 0).sum)) ∧
    ((∀ d ∈ sockets, (EmeterSpec.latest period k d).bind EmeterSpec.energyWh = none) → Dict.get? stats k = none)

/-- Entries with periods and energies. -/
def Sound (period : String) (entries : List EmeterSpec.Entry) : Prop := EmeterSpec.Dated period entries ∧ EmeterSpec.Uniform entries

end Kasa.MeterSpec
