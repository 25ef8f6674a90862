import Verif.Model.Motion
/-!
# Specification: motion sensors
-/

namespace Kasa.MotionSpec
open Motion

/-- How far the reading is off the middle between `lo` and `hi`, in percent of the largest distance there is. -/
def deviation (lo hi adc : Int) : Rat := Rat.abs ((2 * adc - (lo + hi) : Int) : Rat) / ((hi - lo : Int) : Rat) * 100

/-- The sensor, as its owner sees it. -/
structure Sensor where
  on : Bool
  range : Range
  far : Int
  mid : Int
  near : Int
  custom : Int
  timeout : Int

/-- The threshold of a range. -/
def Sensor.at (s : Sensor) : Range → Int
  | .far => s.far
  | .mid => s.mid
  | .near => s.near
  | .custom => s.custom

/-- What the owner may do. -/
inductive Op where
  | enable (on : Bool)
  | range (r : Range)
  | named (text : String)
  | threshold (v : Int)
  | timeout (ms : Int)

/-- Is `text` the name, in whatever case and between white space? -/
def Names (text : String) (name : String) : Prop :=
  ∃ before word after, text.toList = before ++ word ++ after ∧ (∀ c ∈ before, isSpace c = true) ∧
    (∀ c ∈ after, isSpace c = true) ∧ word.map Char.toLower = name.toList.map Char.toLower

/-- A threshold makes the sensor use its own range; a name that is none changes nothing. -/
inductive Sensor.Does : Sensor → Op → Sensor → Prop
  | enable (s on) : Does s (.enable on) { s with on }
  | range (s r) : Does s (.range r) { s with range := r }
  | named (s text r) (h : Names text r.name) : Does s (.named text) { s with range := r }
  | unknown (s text) (h : ∀ r : Range, ¬ Names text r.name) : Does s (.named text) s
  | threshold (s v) : Does s (.threshold v) { s with range := .custom, custom := v }
  | timeout (s ms) : Does s (.timeout ms) { s with timeout := ms }

/-- The request of an operation. -/
def send : Op → Except Exc Request
  | .enable on => .ok (setEnabled on)
  | .range r => .ok (setRange r)
  | .named t => setRangeName t
  | .threshold v => .ok (setThreshold v)
  | .timeout ms => .ok (setInactivityTimeout ms)

/-- What the device stores. -/
structure Device where
  enable : Json
  minAdc : Json
  maxAdc : Json
  index : Json
  array : List Json
  coldTime : Json
  adc : Json

/-- What it reports. -/
def Device.report (d : Device) : Json :=
  .obj [
    ("get_config", .obj [("enable", d.enable), ("version", .str "1.0"), ("trigger_index", d.index), ("cold_time", d.coldTime),
      ("min_adc", d.minAdc), ("max_adc", d.maxAdc), ("array", .arr d.array), ("err_code", .num 0)]),
    ("get_adc_value", .obj [("value", d.adc), ("err_code", .num 0)])]

/-- The device does what it is told. -/
def Device.obey (d : Device) (r : Request) : Device :=
  if r.1 = "set_enable" then { d with enable := (Dict.get? r.2 "enable").getD d.enable }
  else if r.1 = "set_trigger_sens" then
    { d with
      index := (Dict.get? r.2 "index").getD d.index
      array := match Dict.get? r.2 "index", Dict.get? r.2 "value" with
        | some (.num i), some v => d.array.set i.toNat v
        | _, _ => d.array }
  else if r.1 = "set_cold_time" then { d with coldTime := (Dict.get? r.2 "cold_time").getD d.coldTime }
  else d

def step (d : Device) (op : Op) : Device :=
  match send op with
  | .ok r => d.obey r
  | .error _ => d

/-- The device and the owner agree. -/
structure Holds (lo hi adc : Int) (d : Device) (s : Sensor) : Prop where
  enable : d.enable = .num (if s.on then 1 else 0)
  minAdc : d.minAdc = .num lo
  maxAdc : d.maxAdc = .num hi
  index : d.index = .num s.range.value
  array : d.array = [.num s.far, .num s.mid, .num s.near, .num s.custom]
  coldTime : d.coldTime = .num s.timeout
  adc : d.adc = .num adc

/-- What several operations lead to. -/
inductive Sensor.Did : Sensor → List Op → Sensor → Prop
  | nil (s) : Did s [] s
  | cons {s s' s'' op ops} (h : s.Does op s') (hs : Did s' ops s'') : Did s (op :: ops) s''

end Kasa.MotionSpec
