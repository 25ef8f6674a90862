import Verif.Model.Rules
/-!
# Specification: rules of legacy devices
-/

namespace Kasa.RulesSpec
open Rules

/-! ## What a rule says -/

/-- A number of a rule, as the device writes it. -/
def Number (kvs : List (String × Json)) (key : String) (n : Int) : Prop := Dict.get? kvs key = some (.num n)

/-- A field a rule may leave out, or give as null. -/
def Maybe {α : Type} (code : α → Json) (kvs : List (String × Json)) (key : String) : Option α → Prop
  | none => Dict.get? kvs key = none ∨ Dict.get? kvs key = some .null
  | some x => Dict.get? kvs key = some (code x)

/-- The numbers for the actions. -/
def actionCode : Action → Json
  | .disabled => .num (-1)
  | .turnOff => .num 0
  | .turnOn => .num 1
  | .unknown => .num 2

/-- The numbers for the times. -/
def timeCode : TimeOption → Json
  | .disabled => .num (-1)
  | .enabled => .num 0
  | .atSunrise => .num 1
  | .atSunset => .num 2

/-- The dict of a rule. -/
structure Describes (v : Json) (r : Rule) (kvs : List (String × Json)) : Prop where
  dict : v = .obj kvs
  id : Dict.get? kvs "id" = some r.id
  name : Dict.get? kvs "name" = some r.name
  enable : Number kvs "enable" r.enable
  wday : Dict.get? kvs "wday" = some (.arr (r.wday.map .num))
  repeats : Number kvs "repeat" r.repeats
  sact : Maybe actionCode kvs "sact" r.sact
  stimeOpt : Maybe timeCode kvs "stime_opt" r.stimeOpt
  smin : Maybe .num kvs "smin" r.smin
  eact : Maybe actionCode kvs "eact" r.eact
  etimeOpt : Maybe timeCode kvs "etime_opt" r.etimeOpt
  emin : Maybe .num kvs "emin" r.emin
  sLight : Maybe .obj kvs "s_light" r.sLight

/-- Lists described one by one. -/
inductive AllDescribe : List Json → List Rule → Prop where
  | nil : AllDescribe [] []
  | cons {v r kvs vs rs} : Describes v r kvs → AllDescribe vs rs → AllDescribe (v :: vs) (r :: rs)

/-! ## A device with rules -/

/-- The rules of one module of a device, as dicts, and whether they are in force. -/
structure Device where
  enabled : Bool
  stored : List Json

/-- The id of a stored rule. -/
def idOf (v : Json) : Option Json := v.get? "id"

/-- What the device does with a command. -/
def after (d : Device) : String → Json → Device
  | "set_overall_enable", .obj kvs => match Dict.get? kvs "enable" with | some (.bool b) => { d with enabled := b } | _ => d
  | "delete_rule", .obj kvs => match Dict.get? kvs "id" with | some i => { d with stored := d.stored.filter fun v => decide (idOf v ≠ some i) } | _ => d
  | "delete_all_rules", _ => { d with stored := [] }
  | _, _ => d

/-- A request for a module with one command. -/
def commandOf (module : String) : Json → Option (String × Json)
  | .obj [(m, .obj [(cmd, arg)])] => if m = module then some (cmd, arg) else none
  | _ => none

/-- The state of the device after a request. -/
def receives (module : String) (d : Device) (request : Json) : Device :=
  match commandOf module request with
  | some (cmd, arg) => after d cmd arg
  | none => d

/-- Its answer to a command: no error. -/
def acknowledges (module : String) (request : Json) : Except Exc Json :=
  match commandOf module request with
  | some (cmd, _) => .ok (.obj [(module, .obj [(cmd, .obj [("err_code", .num 0)])])])
  | none => .ok (.obj [])

/-- What an update stores. -/
def Updated (module : String) (d : Device) (lastUpdate : List (String × Json)) : Prop :=
  ∃ m g, Dict.get? lastUpdate module = some (.obj m) ∧ Dict.get? m "get_rules" = some (.obj g) ∧ Dict.get? g "rule_list" = some (.arr d.stored)

end Kasa.RulesSpec
