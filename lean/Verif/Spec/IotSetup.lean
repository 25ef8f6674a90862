import Verif.Model.IotSetup
import Verif.Spec.IotDevice
/-!
# Specification: what legacy devices offer, and what they are asked for
-/

namespace Kasa.IotSetup.Spec

open IotSpec

/-- Is it a light with its own protocol of services? -/
def lamp : Kind → Bool
  | .bulb | .lightStrip => true
  | _ => false

/-- Which kinds offer a module.  `ene` is whether the device reports an energy meter, `pir` whether it is named as a motion sensor. -/
def offers (kind : Kind) (ene pir : Bool) (name : String) : Bool :=
  match name with
  | "Energy" => lamp kind || ene
  | "schedule" | "usage" | "anti_theft" => match kind with | .camera => false | _ => true
  | "Time" | "cloud" => match kind with | .camera | .socket _ => false | _ => true
  | "Led" => match kind with | .plug | .wallSwitch | .dimmer | .strip => true | _ => false
  | "countdown" => match kind with | .bulb | .lightStrip | .strip | .socket _ => true | _ => false
  | "motion" | "ambient" => match kind with | .dimmer => true | .wallSwitch => pir | _ => false
  | "dimmer" => match kind with | .dimmer => true | _ => false
  | "Light" => match kind with | .dimmer | .bulb | .lightStrip => true | _ => false
  | "LightPreset" => lamp kind
  | "LightEffect" => match kind with | .lightStrip => true | _ => false
  | _ => false

/-- The service of the device that a module is about, for those that ask for something. -/
def service (lamp : Bool) (name : String) : String :=
  match name with
  | "Energy" => if lamp then "smartlife.iot.common.emeter" else "emeter"
  | "schedule" | "usage" => if lamp then "smartlife.iot.common.schedule" else "schedule"
  | "anti_theft" => if lamp then "smartlife.iot.common.anti_theft" else "anti_theft"
  | "Time" => if lamp then "smartlife.iot.common.timesetting" else "time"
  | "cloud" => if lamp then "smartlife.iot.common.cloud" else "cnCloud"
  | "countdown" => "countdown"
  | "motion" => "smartlife.iot.PIR"
  | "ambient" => "smartlife.iot.LAS"
  | "dimmer" => "smartlife.iot.dimmer"
  | _ => ""

/-- The commands of a module with their arguments; `empty` stands for no arguments.  The energy of a strip is that of its sockets. -/
def commands (strip : Bool) (empty : Json) (now : Int × Int) (name : String) : List (String × Json) :=
  let statistics := [("get_realtime", empty), ("get_daystat", .obj [("year", .num now.1), ("month", .num now.2)]),
    ("get_monthstat", .obj [("year", .num now.1)])]
  match name with
  | "Energy" => if strip then [] else statistics
  | "usage" => statistics
  | "schedule" | "anti_theft" | "countdown" => [("get_rules", empty), ("get_next_action", empty)]
  | "Time" => [("get_time", empty), ("get_timezone", empty)]
  | "cloud" => [("get_info", empty)]
  | "motion" => [("get_config", empty), ("get_adc_value", empty)]
  | "ambient" => [("get_config", empty), ("get_current_brt", empty)]
  | "dimmer" => [("get_dimmer_parameters", empty), ("get_default_behavior", empty)]
  | _ => []

/-- No arguments: an empty dict, or nothing at all for the sockets of a strip. -/
def noArgs : Kind → Json
  | .socket _ => .null
  | _ => .obj []

/-- The device is to be asked for this command of this service with this argument. -/
def Asked (kind : Kind) (ene pir : Bool) (now : Int × Int) (s c : String) (a : Json) : Prop :=
  ∃ name, offers kind ene pir name = true ∧ service (lamp kind) name = s ∧ (c, a) ∈ commands (decide (kind = .strip)) (noArgs kind) now name

/-- The device has refused the service before. -/
def Refused (last : List (String × Json)) (s : String) : Prop := ∃ kvs, Dict.get? last s = some (.obj kvs) ∧ "err_code" ∈ Dict.keys kvs

/-- A request has the command of the service with exactly this argument, up to the order of keys. -/
def Carries (r : Json) (s c : String) (a : Json) : Prop := ∃ w, follow r [s, c] = some w ∧ PartOf a w ∧ PartOf w a

/-- What a device is named decides whether it is a motion sensor. -/
def Named (devName : Option Json) (pir : Bool) : Prop :=
  ∃ s : String, devName = some (.str s) ∧ (pir = true ↔ ∃ a b, s.toList = a ++ "PIR".toList ++ b)

end Kasa.IotSetup.Spec
