import Verif.Py.Ops
/-!
# Motion and ambient light sensors of legacy dimmers (iot/modules/motion.py, iot/modules/ambientlight.py)

`data` is what the module holds.  A setter makes one request to its module; the model gives its method and parameters.
Simplified: percentages are exact, without the rounding of floats; `int` of a text raises.
-/

namespace Kasa.Motion
open Ops

/-- `Range` (motion.py:17-26). -/
inductive Range where
  | far | mid | near | custom
  deriving DecidableEq, Repr

/-- The members (motion.py:20-23). -/
def Range.all : List Range := [.far, .mid, .near, .custom]

/-- The value of a member (motion.py:20-23). -/
def Range.value : Range → Nat
  | .far => 0
  | .mid => 1
  | .near => 2
  | .custom => 3

/-- The name of a member (motion.py:20-23). -/
def Range.name : Range → String
  | .far => "Far"
  | .mid => "Mid"
  | .near => "Near"
  | .custom => "Custom"

/-- `int(x)` of what JSON knows. -/
def toInt : Json → Except Exc Int
  | .num n => .ok n
  | .bool b => .ok (if b then 1 else 0)
  | .str _ => .error (.other "ValueError")
  | _ => .error (.other "TypeError")

/-- `Range(x)`. -/
def rangeOf (x : Json) : Except Exc Range :=
  match x with
  | .num n =>
    match Range.all.find? (fun r => (r.value : Int) = n) with
    | some r => .ok r
    | none => .error (.other "ValueError")
  | .bool b => .ok (if b then .mid else .far)
  | _ => .error (.other "ValueError")

/-- `PIRConfig` (motion.py:29-37). -/
structure PIRConfig where
  enabled : Bool
  adcMin : Int
  adcMax : Int
  range : Range
  threshold : Int
  deriving DecidableEq

/-- `adc_mid` (motion.py:39-42). -/
def PIRConfig.adcMid (c : PIRConfig) : Int := ((c.adcMax - c.adcMin).natAbs / 2 : Nat)

/-- `pir_value` (motion.py:52-60). -/
def pirValue (c : PIRConfig) (adc : Int) : Int := c.adcMid - adc

/-- The divisor (motion.py:71-75). -/
def divisor (c : PIRConfig) (adc : Int) : Int :=
  if pirValue c adc < 0 then c.adcMid - c.adcMin else c.adcMax - c.adcMid

/-- `pir_percent` (motion.py:62-76). -/
def pirPercent (c : PIRConfig) (adc : Int) : Except Exc Rat :=
  if divisor c adc = 0 then .error (.other "ZeroDivisionError")
  else .ok ((pirValue c adc : Rat) / (divisor c adc : Rat) * 100)

/-- `pir_triggered` (motion.py:78-88). -/
def pirTriggered (c : PIRConfig) (adc : Int) : Except Exc Bool :=
  if c.enabled then (pirPercent c adc).map fun p => decide (Rat.abs p > ((100 - c.threshold : Int) : Rat)) else .ok false

/-- `config` (motion.py:261-264). -/
def config (data : Json) : Except Exc Json := item data "get_config"

/-- `config["array"]` (motion.py:313, 350, 354).  Simplified: not a list raises `TypeError`. -/
def array (data : Json) : Except Exc (List Json) := do
  match (← item (← config data) "array") with
  | .arr xs => pure xs
  | _ => .error (.other "TypeError")

/-- `get_range_threshold` (motion.py:348-354). -/
def rangeThreshold (data : Json) (r : Range) : Except Exc Int := do
  match (← array data)[r.value]? with
  | some x => toInt x
  | none => .error .kasa

/-- `pir_config` (motion.py:266-276). -/
def pirConfig (data : Json) : Except Exc PIRConfig := do
  let c ← config data
  let range ← rangeOf (← item c "trigger_index")
  let enabled := (← item c "enable").truthy
  let adcMin ← toInt (← item c "min_adc")
  let adcMax ← toInt (← item c "max_adc")
  let threshold ← rangeThreshold data range
  pure { enabled, adcMin, adcMax, range, threshold }

/-- `pir_state` (motion.py:379-382). -/
def pirState (data : Json) : Except Exc (PIRConfig × Json) := do
  let c ← pirConfig data
  let adc ← item (← item data "get_adc_value") "value"
  pure (c, adc)

/-- An arithmetic use of the reading. -/
def number : Json → Except Exc Int
  | .num n => .ok n
  | .bool b => .ok (if b then 1 else 0)
  | _ => .error (.other "TypeError")

/-- `pir_triggered` of the module (motion.py:405-408). -/
def triggered (data : Json) : Except Exc Bool := do
  let (c, adc) ← pirState data
  if c.enabled then pirTriggered c (← number adc) else pure false

/-- `enabled` (motion.py:278-281). -/
def enabled (data : Json) : Except Exc Bool := (pirConfig data).map (·.enabled)

/-- `range` (motion.py:320-323). -/
def range (data : Json) : Except Exc Range := (pirConfig data).map (·.range)

/-- `threshold` (motion.py:356-359). -/
def threshold (data : Json) : Except Exc Int := (pirConfig data).map (·.threshold)

/-- `inactivity_timeout` (motion.py:366-369). -/
def inactivityTimeout (data : Json) : Except Exc Json := do item (← config data) "cold_time"

/-- `ranges` (motion.py:309-318). -/
def ranges (data : Json) : Except Exc (List String) := do
  let n := (← array data).length
  pure ((Range.all.filter (·.value < n)).map Range.name)

/-- A request to the module: its method and parameters. -/
abbrev Request := String × List (String × Json)

/-- `set_enabled` (motion.py:305-307). -/
def setEnabled (on : Bool) : Request := ("set_enable", [("enable", .num (if on then 1 else 0))])

/-- `set_range` (motion.py:325-331). -/
def setRange (r : Range) : Request := ("set_trigger_sens", [("index", .num r.value)])

/-- `set_threshold` (motion.py:361-364). -/
def setThreshold (v : Int) : Request := ("set_trigger_sens", [("index", .num Range.custom.value), ("value", .num v)])

/-- `set_inactivity_timeout` (motion.py:371-377). -/
def setInactivityTimeout (ms : Int) : Request := ("set_cold_time", [("cold_time", .num ms)])

/-- `str.isspace` of one character. -/
def isSpace (c : Char) : Bool :=
  let n := c.toNat
  (9 ≤ n && n ≤ 13) || (28 ≤ n && n ≤ 32) || n == 133 || n == 160 || n == 0x1680 || (0x2000 ≤ n && n ≤ 0x200a) ||
    n == 0x2028 || n == 0x2029 || n == 0x202f || n == 0x205f || n == 0x3000

/-- `str.strip`. -/
def strip (s : List Char) : List Char := ((s.dropWhile isSpace).reverse.dropWhile isSpace).reverse

/-- `str.capitalize`.  Simplified: only ASCII letters change; no other letter becomes one of those of the names. -/
def capitalize : List Char → List Char
  | [] => []
  | c :: cs => c.toUpper :: cs.map Char.toLower

/-- `_parse_range_value` (motion.py:333-342). -/
def parseRange (value : String) : Except Exc Range :=
  match Range.all.find? (fun r => r.name.toList = capitalize (strip value.toList)) with
  | some r => .ok r
  | none => .error .kasa

/-- `_set_range_from_str` (motion.py:344-346). -/
def setRangeName (value : String) : Except Exc Request := (parseRange value).map setRange

/-- `get_pir_state` (motion.py:384-388): what the module holds afterwards when the device answers `latest`, and the result. -/
def getPirState (latest : Json) (kvs : List (String × Json)) : List (String × Json) × Except Exc (PIRConfig × Json) :=
  let kvs := Dict.set kvs "get_adc_value" latest
  (kvs, do
    let c ← pirConfig (.obj kvs)
    let adc ← item latest "value"
    pure (c, adc))

/-! ## Ambient light -/

/-- `config` (ambientlight.py:52-60). -/
def lightConfig (data : Json) : Except Exc Json := do
  match (← item (← item data "get_config") "devs") with
  | .arr (d :: _) => pure d
  | .arr [] => .error (.other "IndexError")
  | _ => .error (.other "TypeError")

/-- `enabled` (ambientlight.py:67-70). -/
def lightEnabled (data : Json) : Except Exc Bool := do pure (← item (← lightConfig data) "enable").truthy

/-- `ambientlight_brightness` (ambientlight.py:72-75). -/
def lightBrightness (data : Json) : Except Exc Int := do toInt (← item (← item data "get_current_brt") "value")

/-- `set_enabled` (ambientlight.py:77-79). -/
def setLightEnabled (on : Bool) : Request := ("set_enable", [("enable", .num (if on then 1 else 0))])

end Kasa.Motion
