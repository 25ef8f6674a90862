import Verif.Model.IotDevice
/-!
# Rules of legacy devices (iot/modules/rulemodule.py; schedule, countdown and antitheft)
-/

namespace Kasa.Rules
open Ops

/-- `Action` (rulemodule.py:14-20). -/
inductive Action where
  | disabled | turnOff | turnOn | unknown
  deriving DecidableEq, Repr

/-- `TimeOption` (rulemodule.py:23-29). -/
inductive TimeOption where
  | disabled | enabled | atSunrise | atSunset
  deriving DecidableEq, Repr

/-- `Rule` (rulemodule.py:32-52).  Texts are not converted or checked by mashumaro, so that `id` and `name` are any value. -/
structure Rule where
  id : Json
  name : Json
  enable : Int
  wday : List Int
  repeats : Int
  sact : Option Action
  stimeOpt : Option TimeOption
  smin : Option Int
  eact : Option Action
  etimeOpt : Option TimeOption
  emin : Option Int
  sLight : Option (List (String × Json))

section
variable (toInt : String → Option Int)

/-- `int(value)`; `toInt` reads a text. -/
def asInt : Json → Except Exc Int
  | .num n => .ok n
  | .bool b => .ok (if b then 1 else 0)
  | .str s => match toInt s with | some n => .ok n | none => .error (.other "ValueError")
  | _ => .error (.other "TypeError")

/-- The members of an enumeration by value; in Python `True == 1` and `False == 0`. -/
def asCode : Json → Option Int
  | .num n => some n
  | .bool b => some (if b then 1 else 0)
  | _ => none

/-- `Action(value)` (rulemodule.py:14-20). -/
def asAction (v : Json) : Except Exc Action :=
  match asCode v with
  | some (-1) => .ok .disabled
  | some 0 => .ok .turnOff
  | some 1 => .ok .turnOn
  | some 2 => .ok .unknown
  | _ => .error (.other "ValueError")

/-- `TimeOption(value)` (rulemodule.py:23-29). -/
def asTimeOption (v : Json) : Except Exc TimeOption :=
  match asCode v with
  | some (-1) => .ok .disabled
  | some 0 => .ok .enabled
  | some 1 => .ok .atSunrise
  | some 2 => .ok .atSunset
  | _ => .error (.other "ValueError")

/-- `[int(v) for v in value]`. -/
def asInts : List Json → Except Exc (List Int)
  | [] => .ok []
  | v :: vs => do
    let n ← asInt toInt v
    let ns ← asInts vs
    pure (n :: ns)

/-- A list of numbers.  Simplified: Python would iterate over a text or a dict as well; here they are refused. -/
def asList (v : Json) : Except Exc (List Int) :=
  match v with
  | .arr vs => asInts toInt vs
  | _ => .error (.other "TypeError")

/-- A dict. -/
def asDict (v : Json) : Except Exc (List (String × Json)) :=
  match v with
  | .obj kvs => .ok kvs
  | _ => .error (.other "AttributeError")

/-- A field that may be missing or null. -/
def optional {α : Type} (kvs : List (String × Json)) (key : String) (f : Json → Except Exc α) : Except Exc (Option α) :=
  match Dict.get? kvs key with
  | none => .ok none
  | some .null => .ok none
  | some v => do pure (some (← f v))

/-- `Rule.from_dict` (rulemodule.py:32-52, generated by mashumaro).  The exceptions of mashumaro are not told apart. -/
def fromDict (v : Json) : Except Exc Rule :=
  match v with
  | .obj kvs => do
    let id ← item v "id"
    let name ← item v "name"
    let enable ← asInt toInt (← item v "enable")
    let wday ← asList toInt (← item v "wday")
    let repeats ← asInt toInt (← item v "repeat")
    let sact ← optional kvs "sact" asAction
    let stimeOpt ← optional kvs "stime_opt" asTimeOption
    let smin ← optional kvs "smin" (asInt toInt)
    let eact ← optional kvs "eact" asAction
    let etimeOpt ← optional kvs "etime_opt" asTimeOption
    let emin ← optional kvs "emin" (asInt toInt)
    let sLight ← optional kvs "s_light" asDict
    pure ⟨id, name, enable, wday, repeats, sact, stimeOpt, smin, eact, etimeOpt, emin, sLight⟩
  | _ => .error (.other "TypeError")

/-- The list comprehension (rulemodule.py:69-71). -/
def fromDicts : List Json → Except Exc (List Rule)
  | [] => .ok []
  | v :: vs => do
    let r ← fromDict toInt v
    let rs ← fromDicts vs
    pure (r :: rs)

/-- The module: its query (rulemodule.py:60-63) merges two commands, so that `data` (iotmodule.py:53-67) is what the device answered under the name of
the module. -/
def data (module : String) (lastUpdate : List (String × Json)) : Except Exc Json :=
  match Dict.get? lastUpdate module with
  | some v => .ok v
  | none => .error .kasa

/-- The `try` of `rules` (rulemodule.py:68-71).  Simplified: a rule list that is not a list is refused. -/
def readRules (module : String) (lastUpdate : List (String × Json)) : Except Exc (List Rule) := do
  let d ← data module lastUpdate
  let g ← item d "get_rules"
  match (← item g "rule_list") with
  | .arr vs => fromDicts toInt vs
  | _ => .error (.other "TypeError")

/-- `rules` (rulemodule.py:65-74). -/
def rules (module : String) (lastUpdate : List (String × Json)) : Except Exc (List Rule) :=
  match readRules toInt module lastUpdate with
  | .ok rs => .ok rs
  | .error e => if e.isException then .ok [] else .error e
end

/-- `query` (rulemodule.py:60-63). -/
def query (module : String) : Json := .obj [(module, .obj [("get_rules", .obj []), ("get_next_action", .obj [])])]

/-- What can be asked for (rulemodule.py:76-86). -/
inductive Command where
  | setEnabled (state : Bool)
  | delete (rule : Rule)
  | deleteAll

/-- `call` (iotmodule.py:33-35) with the method and its parameters (rulemodule.py:76-86). -/
def perform (send : Json → Except Exc Json) (module : String) : Command → Except Exc Json
  | .setEnabled b => Iot.queryHelper send module "set_overall_enable" (some (.obj [("enable", .bool b)])) none
  | .delete r => Iot.queryHelper send module "delete_rule" (some (.obj [("id", r.id)])) none
  | .deleteAll => Iot.queryHelper send module "delete_all_rules" none none

/-- `schedule delete --id` (cli/schedule.py:36-46): the first rule with this id is deleted, and without one the command fails. -/
def cliDelete (toInt : String → Option Int) (send : Json → Except Exc Json) (lastUpdate : List (String × Json)) (id : String) : Except Exc (Option Json) := do
  let rs ← rules toInt "schedule" lastUpdate
  match rs.find? fun r => decide (r.id = .str id) with
  | some r => do pure (some (← perform send "schedule" (.delete r)))
  | none => pure none

end Kasa.Rules
