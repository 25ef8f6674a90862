import Verif.Py.Dict
import Verif.Py.Json
import Verif.Py.Monad
/-!
# Energy readings (emeterstatus.py, iot/modules/emeter.py, iot/modules/usage.py, iot/iotstrip.py, smart/modules/energy.py)

Numbers are exact rationals: the rounding of floats is left out.
-/

namespace Kasa.Emeter

/-- A number or `None` by key: an `EmeterStatus`, or an answer it is made of. -/
abbrev Readings := List (String × Option Rat)

/-- `valid_keys` (emeterstatus.py:60-71). -/
def validKeys : List String :=
  ["voltage_mv", "power_mw", "current_ma", "energy_wh", "total_wh", "voltage", "power", "current", "total", "energy"]

/-- `i.startswith(item)`. -/
def startsWith (i item : String) : Bool := item.toList.isPrefixOf i.toList

/-- `item[: item.find("_")]`. -/
def beforeUnderscore (item : String) : String := String.ofList (item.toList.takeWhile (· ≠ '_'))

/-- The loop of the downscaling (emeterstatus.py:83-88); `i` is a key, so `self.__getitem__(i)` is its value. -/
def downscale (item : String) : Readings → Option Rat
  | [] => none
  | (i, v) :: rest =>
    match (if startsWith i item then v else none) with
    | some x => some (x / 1000)
    | none => downscale item rest

/-- `super().__getitem__(base) * 1000` (emeterstatus.py:81). -/
def upscale : Option (Option Rat) → Except Exc (Option Rat)
  | none => .error (.other "KeyError")
  | some none => .error (.other "TypeError")
  | some (some v) => .ok (some (v * 1000))

/-- `EmeterStatus.__getitem__` (emeterstatus.py:58-91). -/
def getItem (s : Readings) (item : String) : Except Exc (Option Rat) :=
  match Dict.get? s item with
  | some v => .ok v
  | none =>
    if item ∉ validKeys then .error (.other "KeyError")
    else if '_' ∈ item.toList then upscale (Dict.get? s (beforeUnderscore item))
    else .ok (downscale item s)

/-! ## Statistics -/

/-- An entry of a list of statistics. -/
abbrev Entry := List (String × Rat)

/-- `entry[key]`. -/
def field (e : Entry) (key : String) : Except Exc Rat :=
  match Dict.get? e key with
  | some v => .ok v
  | none => .error (.other "KeyError")

/-- The dict comprehension (iot/modules/emeter.py:142, iot/modules/usage.py:120). -/
def collect (entryKey valueKey : String) (scale : Rat) (done : List (Rat × Rat)) : List Entry → Except Exc (List (Rat × Rat))
  | [] => .ok done
  | e :: es => do
    let k ← field e entryKey
    let v ← field e valueKey
    collect entryKey valueKey scale (Dict.set done k (v * scale)) es

/-- The search from the end (iot/modules/emeter.py:151-153, iot/modules/usage.py:47-49): the first of these entries with that period. -/
def search (entryKey valueKey : String) (key : Rat) : List Entry → Except Exc (Option Rat)
  | [] => .ok none
  | e :: es => do
    let k ← field e entryKey
    if k = key then
      let v ← field e valueKey
      pure (some v)
    else search entryKey valueKey key es

/-- The key of the value and the factor, decided by the first entry (iot/modules/emeter.py:129-138). -/
def scaling (kwh : Bool) (e : Entry) : String × Rat :=
  if Dict.has e "energy_wh" then ("energy_wh", if kwh then 1 / 1000 else 1)
  else ("energy", if kwh then 1 else 1000)

/-- `Emeter._convert_stat_data` without `key` (iot/modules/emeter.py:106-142). -/
def convert (entryKey : String) (kwh : Bool) : List Entry → Except Exc (List (Rat × Rat))
  | [] => .ok []
  | e :: es => collect entryKey (scaling kwh e).1 (scaling kwh e).2 [] (e :: es)

/-- `consumption_today` and `consumption_this_month` (iot/modules/emeter.py:37-51), with `Emeter._convert_stat_data` for a key
(iot/modules/emeter.py:144-155): `now` is the day of `datetime.now()`, or the month. -/
def current (entryKey : String) (now : Rat) : List Entry → Except Exc Rat
  | [] => .ok 0
  | e :: es => do
    match (← search entryKey (scaling true e).1 now (e :: es).reverse) with
    | some v => pure (v * (scaling true e).2)
    | none => pure 0

/-- `datetime.now()`. -/
structure Date where
  year : Rat
  month : Rat
  day : Rat

/-- `consumption_today` (iot/modules/emeter.py:37-43), with the list of the last update. -/
def consumptionToday (now : Date) (data : List Entry) : Except Exc Rat := current "day" now.day data

/-- `consumption_this_month` (iot/modules/emeter.py:45-51). -/
def consumptionThisMonth (now : Date) (data : List Entry) : Except Exc Rat := current "month" now.month data

/-- `usage_today` and `usage_this_month` (iot/modules/usage.py:42-60). -/
def currentUsage (entryKey : String) (now : Rat) (data : List Entry) : Except Exc (Option Rat) :=
  search entryKey "time" now data.reverse

/-- `Usage._convert_stat_data` (iot/modules/usage.py:104-122). -/
def convertUsage (entryKey : String) (data : List Entry) : Except Exc (List (Rat × Rat)) :=
  collect entryKey "time" 1 [] data

/-! ## Strips -/

/-- The inner loop of `merge_sums` (iotstrip.py:33-34). -/
def addAll {K : Type} [DecidableEq K] (total : List (K × Rat)) : List (K × Option Rat) → Except Exc (List (K × Rat))
  | [] => .ok total
  | (_, none) :: _ => .error (.other "TypeError")
  | (k, some v) :: rest => addAll (Dict.set total k ((Dict.get? total k).getD 0 + v)) rest

/-- `merge_sums` (iotstrip.py:29-35). -/
def mergeSums {K : Type} [DecidableEq K] (total : List (K × Rat)) : List (List (K × Option Rat)) → Except Exc (List (K × Rat))
  | [] => .ok total
  | d :: ds => do
    let total ← addAll total d
    mergeSums total ds

/-- `int(x)`: towards zero. -/
def truncate (x : Rat) : Rat := (Int.tdiv x.num x.den : Int)

/-- `StripEmeter.status` and `get_status` (iotstrip.py:288-297, 211-219), from the readings of the sockets.  The dict that is
read for the voltage has default 0. -/
def stripStatus (children : List Readings) : Except Exc Readings := do
  let total ← mergeSums [] children
  if children = [] then .error (.other "ZeroDivisionError")
  else
    let mv := (Dict.get? total "voltage_mv").getD 0
    pure ((Dict.set total "voltage_mv" (truncate (mv / children.length))).map fun kv => (kv.1, some kv.2))

/-- `StripEmeter.get_daily_stats` and `get_monthly_stats` (iotstrip.py:221-255), from the statistics of the sockets. -/
def stripStats (children : List (List (Rat × Rat))) : Except Exc (List (Rat × Rat)) :=
  mergeSums [] (children.map fun d => d.map fun kv => (kv.1, some kv.2))

/-- `sum(v if (v := ..) else 0.0 for ..)` (iotstrip.py:203-209, 264-286). -/
def stripSum : List (Option Rat) → Rat
  | [] => 0
  | v :: vs => (if v = none ∨ v = some 0 then 0 else v.getD 0) + stripSum vs

/-! ## The newer devices -/

/-- What the module reads: one answer in version 1, else answers by method; the first is optional (smart/modules/energy.py:51-67). -/
inductive Data where
  | v1 (usage : Readings)
  | v2 (usage : Option Readings) (power emeter : Readings)

/-- `d.get(key)`: `None` counts as missing. -/
def present (d : Readings) (key : String) : Option Rat := (Dict.get? d key).join

/-- `self._energy` (smart/modules/energy.py:30): without the answer it is the dict of all answers, in which no reading stands. -/
def energy : Data → Readings
  | .v1 u => u
  | .v2 (some u) _ _ => u
  | .v2 none _ _ => []

/-- `data.get("get_emeter_data", {})`. -/
def emeterData : Data → Readings
  | .v1 _ => []
  | .v2 _ _ e => e

/-- `data.get("get_current_power", {})`. -/
def powerData : Data → Readings
  | .v1 _ => []
  | .v2 _ p _ => p

/-- `current_consumption` (smart/modules/energy.py:37-49, 69-72). -/
def smartPower (d : Data) : Option Rat :=
  match present (energy d) "current_power" with
  | some p => some (p / 1000)
  | none =>
    match present (emeterData d) "power_mw" with
    | some p => some (p / 1000)
    | none => present (powerData d) "current_power"

/-- `_get_status_from_energy` (smart/modules/energy.py:79-85).  A reported `None` raises in the division. -/
def statusFromEnergy (u : Readings) : Except Exc Readings :=
  match Dict.get? u "today_energy" with
  | some none => .error (.other "TypeError")
  | some (some t) => .ok [("power_mw", (Dict.get? u "current_power").getD (some 0)), ("total", some (t / 1000))]
  | none => .ok [("power_mw", (Dict.get? u "current_power").getD (some 0)), ("total", some 0)]

/-- `status` (smart/modules/energy.py:87-94). -/
def smartStatus : Data → Except Exc Readings
  | .v1 u => statusFromEnergy u
  | .v2 _ _ e => .ok e

/-- `consumption_this_month`, `consumption_today` (smart/modules/energy.py:105-117): `key` is `month_energy` or `today_energy`. -/
def smartConsumption (d : Data) (key : String) : Option Rat := (present (energy d) key).map (· / 1000)

/-- `current`, `voltage` (smart/modules/energy.py:125-139): `key` is `current_ma` or `voltage_mv`. -/
def smartReading (d : Data) (key : String) : Option Rat := (present (emeterData d) key).map (· / 1000)

end Kasa.Emeter
