import Verif.Model.Behaviours
import Verif.Spec.IotDevice
/-!
# Specification: bulbs that keep what they do when turned on, and dimmers with buttons and fades
-/

namespace Kasa.BehavioursSpec
open Behaviours IotSpec

/-- A request with one command. -/
def request (service cmd : String) (args : List (String × Json)) : Json := .obj [(service, .obj [(cmd, .obj args)])]

/-- An answer that accepts the command with these values. -/
def Answers (service cmd : String) (answer : Except Exc Json) (values : List (String × Json)) : Prop :=
  ∃ response, answer = .ok response ∧ Proper response ∧ Accepted service cmd response (.obj values)

/-! ## Bulbs -/

/-- The texts for the modes. -/
def modeText : Mode → String
  | .last => "last_status"
  | .preset => "customize_preset"
  | .circadian => "circadian"

/-- A number that may be left out, or given as null. -/
def Maybe (kvs : List (String × Json)) (key : String) : Option Int → Prop
  | none => Dict.get? kvs key = none ∨ Dict.get? kvs key = some .null
  | some n => Dict.get? kvs key = some (.num n)

/-- A dict says what to do when turned on. -/
structure Says (kvs : List (String × Json)) (b : Behavior) : Prop where
  mode : Dict.get? kvs "mode" = some (.str (modeText b.mode))
  preset : Maybe kvs "index" b.preset
  brightness : Maybe kvs "brightness" b.brightness
  colorTemp : Maybe kvs "color_temp" b.colorTemp
  hue : Maybe kvs "hue" b.hue
  saturation : Maybe kvs "saturation" b.saturation

/-- A bulb whose state holds what it does when turned on: by a command, and with the mains.  It tells both by the names `soft_on` and
`hard_on`, and takes them by the same names. -/
structure Bulb {D : Type} (service : String) (step : Step D) (soft hard : D → Behavior) : Prop where
  asked : ∀ d, (step d (request service "get_default_behavior" [])).2 = d ∧
    ∃ values s h, Answers service "get_default_behavior" (step d (request service "get_default_behavior" [])).1 values ∧
      Dict.get? values "soft_on" = some (.obj s) ∧ Says s (soft d) ∧ Dict.get? values "hard_on" = some (.obj h) ∧ Says h (hard d)
  accepts : ∀ d args, ∃ values, Answers service "set_default_behavior" (step d (request service "set_default_behavior" args)).1 values
  takesSoft : ∀ d args kvs b, Dict.get? args "soft_on" = some (.obj kvs) → Says kvs b →
    soft (step d (request service "set_default_behavior" args)).2 = b
  takesHard : ∀ d args kvs b, Dict.get? args "hard_on" = some (.obj kvs) → Says kvs b →
    hard (step d (request service "set_default_behavior" args)).2 = b
  keepsSoft : ∀ d args, Dict.get? args "soft_on" = none → soft (step d (request service "set_default_behavior" args)).2 = soft d
  keepsHard : ∀ d args, Dict.get? args "hard_on" = none → hard (step d (request service "set_default_behavior" args)).2 = hard d

/-! ## Dimmers -/

/-- What a dimmer does on a double click and on a long press, with the preset it selects, and how long it fades. -/
structure Dimmer where
  button : ActionType → ButtonAction × Option Int
  fade : FadeType → Int

/-- An order. -/
inductive Order where
  | button (t : ActionType) (a : ButtonAction) (index : Option Int)
  | fade (f : FadeType) (time : Int)

/-- The texts of the devices. -/
def typeText : ActionType → String
  | .doubleClick => "double_click_action"
  | .longPress => "long_press_action"

/-- The texts of the devices. -/
def actionText : ButtonAction → String
  | .noAction => "none"
  | .instant => "instant_on_off"
  | .gentle => "gentle_on_off"
  | .preset => "customize_preset"

/-- The texts of the devices. -/
def fadeText : FadeType → String
  | .fadeOn => "fade_on"
  | .fadeOff => "fade_off"

/-- The command for an order. -/
def Order.command : Order → String
  | .button .doubleClick _ _ => "set_double_click_action"
  | .button .longPress _ _ => "set_long_press_action"
  | .fade .fadeOn _ => "set_fade_on_time"
  | .fade .fadeOff _ => "set_fade_off_time"

/-- Its arguments. -/
def Order.args : Order → List (String × Json)
  | .button _ a none => [("mode", .str (actionText a))]
  | .button _ a (some i) => [("mode", .str (actionText a)), ("index", .num i)]
  | .fade _ time => [("fadeTime", .num time)]

/-- What it changes. -/
def Order.effect : Order → Dimmer → Dimmer
  | .button t a i, d => { d with button := fun u => if u = t then (a, i) else d.button u }
  | .fade f time, d => { d with fade := fun g => if g = f then time else d.fade g }

/-- The service of dimmers. -/
def service : String := "smartlife.iot.dimmer"

/-- The commands for orders. -/
def commands : List String := ["set_double_click_action", "set_long_press_action", "set_fade_on_time", "set_fade_off_time"]

/-- A dimmer that obeys orders and refuses commands and actions it does not know. -/
structure Obeys (step : Step Dimmer) : Prop where
  obeys : ∀ (d : Dimmer) (o : Order), (step d (request service o.command o.args)).2 = o.effect d ∧
    ∃ values, Answers service o.command (step d (request service o.command o.args)).1 values
  refuses : ∀ d cmd args, (cmd ∉ "get_default_behavior" :: commands ∨
      cmd ∈ ["set_double_click_action", "set_long_press_action"] ∧ (∀ a, Dict.get? args "mode" ≠ some (.str (actionText a)))) →
    (step d (request service cmd args)).2 = d ∧ ∃ response, (step d (request service cmd args)).1 = .ok response ∧ Refused service cmd response
  tells : ∀ d, (step d (request service "get_default_behavior" [])).2 = d

/-- The call for an order, with its arguments as texts. -/
def withTexts (step : Step Dimmer) : Order → PyM Dimmer Json
  | .button t a i => setButtonAction step true (.text (typeText t)) (.text (actionText a)) i
  | .fade f time => setFadeTime step true (.text (fadeText f)) time

/-- The call for an order, with members of the enumerations for its arguments, as documented. -/
def withMembers (step : Step Dimmer) : Order → PyM Dimmer Json
  | .button t a i => setButtonAction step true (.member t) (.member a) i
  | .fade f time => setFadeTime step true (.member f) time

end Kasa.BehavioursSpec
