import Verif.Model.IotDevice
import Verif.Model.Rules
/-!
# What legacy bulbs do when turned on, and what the buttons of legacy dimmers do (iot/iotbulb.py, iot/iotdimmer.py)
-/

namespace Kasa.Behaviours
open Ops Rules

/-- `BehaviorMode` (iotbulb.py:34-42). -/
inductive Mode where
  | last | preset | circadian
  deriving DecidableEq, Repr

/-- `BehaviorMode.value` (iotbulb.py:38-42). -/
def Mode.value : Mode → String
  | .last => "last_status"
  | .preset => "customize_preset"
  | .circadian => "circadian"

/-- `TurnOnBehavior` (iotbulb.py:45-71). -/
structure Behavior where
  mode : Mode
  preset : Option Int
  brightness : Option Int
  colorTemp : Option Int
  hue : Option Int
  saturation : Option Int
  deriving DecidableEq, Repr

/-- `TurnOnBehaviors` (iotbulb.py:74-81). -/
structure Behaviors where
  soft : Behavior
  hard : Behavior
  deriving DecidableEq, Repr

/-- `BehaviorMode(value)` (iotbulb.py:34-42). -/
def asMode : Json → Except Exc Mode
  | .str s =>
    if s = "last_status" then .ok .last
    else if s = "customize_preset" then .ok .preset
    else if s = "circadian" then .ok .circadian
    else .error (.other "ValueError")
  | _ => .error (.other "ValueError")

/-- `TurnOnBehavior.from_dict` (iotbulb.py:45-71, generated by mashumaro); `toInt` reads a text.  The exceptions of mashumaro are not told
apart. -/
def behaviorFrom (toInt : String → Option Int) (v : Json) : Except Exc Behavior :=
  match v with
  | .obj kvs => do
    let mode ← asMode (← item v "mode")
    let preset ← optional kvs "index" (asInt toInt)
    let brightness ← optional kvs "brightness" (asInt toInt)
    let colorTemp ← optional kvs "color_temp" (asInt toInt)
    let hue ← optional kvs "hue" (asInt toInt)
    let saturation ← optional kvs "saturation" (asInt toInt)
    pure { mode, preset, brightness, colorTemp, hue, saturation }
  | _ => .error (.other "AttributeError")

/-- `TurnOnBehaviors.from_dict` (iotbulb.py:74-81, generated by mashumaro): reading goes by the aliases. -/
def behaviorsFrom (toInt : String → Option Int) (v : Json) : Except Exc Behaviors := do
  let soft ← behaviorFrom toInt (← item v "soft_on")
  let hard ← behaviorFrom toInt (← item v "hard_on")
  pure { soft, hard }

/-- A field that is left out if it is `None` (`omit_none`, iotbulb.py:60). -/
def written (key : String) : Option Int → List (String × Json)
  | none => []
  | some n => [(key, .num n)]

/-- `TurnOnBehavior.to_dict` (iotbulb.py:45-71): without `None`s and by the aliases, as its `Config` says. -/
def behaviorTo (b : Behavior) : Json :=
  .obj ([("mode", .str b.mode.value)] ++ written "index" b.preset ++ written "brightness" b.brightness ++ written "color_temp" b.colorTemp ++
    written "hue" b.hue ++ written "saturation" b.saturation)

/-- `TurnOnBehaviors.to_dict` (iotbulb.py:74-81): the class has no `Config`, so that mashumaro writes the names of the fields, not the
aliases. -/
def behaviorsTo (b : Behaviors) : Json :=
  .obj [("soft", behaviorTo b.soft), ("hard", behaviorTo b.hard)]

section
variable {D : Type}

/-- A device with the network: what it answers a request, and its state then. -/
abbrev Step (D : Type) := D → Json → Except Exc Json × D

variable (step : Step D)

/-- `_query_helper` (iotdevice.py:246-284) of a device without sockets. -/
def call (service cmd : String) (arg : Option Json) : PyM D Json := fun d =>
  (Iot.queryHelper (fun r => (step d r).1) service cmd arg none, (step d (Iot.createRequest service cmd arg none)).2)

/-- `get_turn_on_behavior` (iotbulb.py:306-310). -/
def getTurnOn (toInt : String → Option Int) (service : String) : PyM D Behaviors := do
  PyM.lift (behaviorsFrom toInt (← call step service "get_default_behavior" none))

/-- `set_turn_on_behavior` (iotbulb.py:312-320). -/
def setTurnOn (service : String) (b : Behaviors) : PyM D Json :=
  call step service "set_default_behavior" (some (behaviorsTo b))

/-! ## Dimmers -/

/-- `ButtonAction` (iotdimmer.py:17-23). -/
inductive ButtonAction where
  | noAction | instant | gentle | preset
  deriving DecidableEq, Repr

/-- `ActionType` (iotdimmer.py:26-30). -/
inductive ActionType where
  | doubleClick | longPress
  deriving DecidableEq, Repr

/-- `FadeType` (iotdimmer.py:33-37). -/
inductive FadeType where
  | fadeOn | fadeOff
  deriving DecidableEq, Repr

/-- What is given for an argument: a member of the enumeration or a text. -/
inductive Arg (α : Type) where
  | member (x : α)
  | text (s : String)

/-- `str` of an argument (iotdimmer.py:207, 209, 220): of a member of an `Enum` without a mixin it is its qualified name. -/
def Arg.str {α : Type} (name : α → String) : Arg α → String
  | .member x => name x
  | .text s => s

/-- `str` of a `ButtonAction` (iotdimmer.py:17-23). -/
def ButtonAction.str : ButtonAction → String
  | .noAction => "ButtonAction.NoAction"
  | .instant => "ButtonAction.Instant"
  | .gentle => "ButtonAction.Gentle"
  | .preset => "ButtonAction.Preset"

/-- `str` of an `ActionType` (iotdimmer.py:26-30). -/
def ActionType.str : ActionType → String
  | .doubleClick => "ActionType.DoubleClick"
  | .longPress => "ActionType.LongPress"

/-- `str` of a `FadeType` (iotdimmer.py:33-37). -/
def FadeType.str : FadeType → String
  | .fadeOn => "FadeType.FadeOn"
  | .fadeOff => "FadeType.FadeOff"

/-- `DIMMER_SERVICE` (iotdimmer.py:71). -/
def dimmerService : String := "smartlife.iot.dimmer"

/-- `@requires_update` (iotdevice.py:39-64).  Simplified: whether the data of an update, or the name among the system information, are there
is one input. -/
def requiresUpdate {α : Type} (updated : Bool) (f : PyM D α) : PyM D α :=
  if updated then f else PyM.raise .kasa

/-- `get_behaviors` (iotdimmer.py:188-194). -/
def getBehaviors (updated : Bool) : PyM D Json :=
  requiresUpdate updated (call step dimmerService "get_default_behavior" (some (.obj [])))

/-- `set_button_action` (iotdimmer.py:196-215). -/
def setButtonAction (updated : Bool) (t : Arg ActionType) (a : Arg ButtonAction) (index : Option Int) : PyM D Json :=
  requiresUpdate updated (call step dimmerService ("set_" ++ t.str ActionType.str)
    (some (.obj ([("mode", .str (a.str ButtonAction.str))] ++ written "index" index))))

/-- `set_fade_time` (iotdimmer.py:217-223). -/
def setFadeTime (updated : Bool) (f : Arg FadeType) (time : Int) : PyM D Json :=
  requiresUpdate updated (call step dimmerService ("set_" ++ f.str FadeType.str ++ "_time") (some (.obj [("fadeTime", .num time)])))

end

end Kasa.Behaviours
