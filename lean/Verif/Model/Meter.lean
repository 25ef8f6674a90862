import Verif.Model.IotDevice
import Verif.Model.Emeter
/-!
# What energy meters ask for and claim (iot/modules/usage.py, iot/modules/emeter.py, iot/iotstrip.py, smart/modules/energy.py, interfaces/energy.py)

The state is the list of the requests sent.  A device answers a request as it likes, also depending on the earlier ones.
-/

namespace Kasa.Meter

open Emeter (Entry Readings)

/-- A device with the network: the answer to a request after these. -/
abbrev Peer := List Json → Json → Except Exc Json

/-- `datetime.now()`. -/
structure Now where
  year : Int
  month : Int

section
variable (peer : Peer)

/-- `IotModule.call` (iot/iotmodule.py:34-36) with `_query_helper` (iot/iotdevice.py:246-284); a socket of a strip leaves it to the strip,
with its identifier (iot/iotstrip.py:405-415). -/
def call (module : String) (socket : Option String) (cmd : String) (arg : Option Json) : PyM (List Json) Json := fun sent =>
  (Iot.queryHelper (peer sent) module cmd arg (socket.map fun id => .arr [.str id]),
   sent ++ [Iot.createRequest module cmd arg (socket.map fun id => .arr [.str id])])

/-- `get_raw_daystat` (iot/modules/usage.py:62-71). -/
def rawDays (now : Now) (module : String) (socket : Option String) (year month : Option Int) : PyM (List Json) Json :=
  call peer module socket "get_daystat" (some (.obj [("year", .num (year.getD now.year)), ("month", .num (month.getD now.month))]))

/-- `get_raw_monthstat` (iot/modules/usage.py:73-78). -/
def rawMonths (now : Now) (module : String) (socket : Option String) (year : Option Int) : PyM (List Json) Json :=
  call peer module socket "get_monthstat" (some (.obj [("year", .num (year.getD now.year))]))

/-- The list of an answer, seen as entries with numbers.  Simplified: what is no list of such entries is not told apart. -/
abbrev Reader := Json → List Entry

variable (read : Reader)

/-- `Emeter.get_daily_stats` (iot/modules/emeter.py:84-93). -/
def dailyStats (now : Now) (module : String) (socket : Option String) (year month : Option Int) (kwh : Bool) : PyM (List Json) (List (Rat × Rat)) := do
  let data ← rawDays peer now module socket year month
  let l ← PyM.lift (Ops.item data "day_list")
  PyM.lift (Emeter.convert "day" kwh (read l))

/-- `Emeter.get_monthly_stats` (iot/modules/emeter.py:95-104). -/
def monthlyStats (now : Now) (module : String) (socket : Option String) (year : Option Int) (kwh : Bool) : PyM (List Json) (List (Rat × Rat)) := do
  let data ← rawMonths peer now module socket year
  let l ← PyM.lift (Ops.item data "month_list")
  PyM.lift (Emeter.convert "month" kwh (read l))

/-- `Usage.get_daystat` (iot/modules/usage.py:80-89). -/
def usageDays (now : Now) (module : String) (socket : Option String) (year month : Option Int) : PyM (List Json) (List (Rat × Rat)) := do
  let data ← rawDays peer now module socket year month
  let l ← PyM.lift (Ops.item data "day_list")
  PyM.lift (Emeter.convertUsage "day" (read l))

/-- `Usage.get_monthstat` (iot/modules/usage.py:91-98). -/
def usageMonths (now : Now) (module : String) (socket : Option String) (year : Option Int) : PyM (List Json) (List (Rat × Rat)) := do
  let data ← rawMonths peer now module socket year
  let l ← PyM.lift (Ops.item data "month_list")
  PyM.lift (Emeter.convertUsage "month" (read l))

/-- `Emeter.erase_stats` (iot/modules/emeter.py:73-78). -/
def eraseEnergy (module : String) (socket : Option String) : PyM (List Json) Json := call peer module socket "erase_emeter_stat" none

/-- `Usage.erase_stats` (iot/modules/usage.py:100-102). -/
def eraseUsage (module : String) (socket : Option String) : PyM (List Json) Json := call peer module socket "erase_runtime_stat" none

/-- `Emeter.get_status` (iot/modules/emeter.py:80-82). -/
def getStatus (module : String) (socket : Option String) : PyM (List Json) Json := call peer module socket "get_realtime" none

/-! ## Strips -/

/-- `[await getattr(plug.modules[Module.Energy], func)(**kwargs) for plug in self._device.children]` (iot/iotstrip.py:248-255). -/
def eachSocket {α : Type} (f : String → PyM (List Json) α) : List String → PyM (List Json) (List α)
  | [] => pure []
  | id :: ids => do
    let x ← f id
    let xs ← eachSocket f ids
    pure (x :: xs)

/-- `StripEmeter.get_daily_stats` (iot/iotstrip.py:221-234): the sockets fill in what is missing. -/
def stripDaily (now : Now) (module : String) (sockets : List String) (year month : Option Int) (kwh : Bool) : PyM (List Json) (List (Rat × Rat)) := do
  let stats ← eachSocket (fun id => dailyStats peer read now module (some id) year month kwh) sockets
  PyM.lift (Emeter.stripStats stats)

/-- `StripEmeter.get_monthly_stats` (iot/iotstrip.py:236-246). -/
def stripMonthly (now : Now) (module : String) (sockets : List String) (year : Option Int) (kwh : Bool) : PyM (List Json) (List (Rat × Rat)) := do
  let stats ← eachSocket (fun id => monthlyStats peer read now module (some id) year kwh) sockets
  PyM.lift (Emeter.stripStats stats)

/-- `StripEmeter.erase_stats` (iot/iotstrip.py:257-262). -/
def stripErase (module : String) : List String → PyM (List Json) Json
  | [] => pure (.obj [])
  | id :: ids => do
    let _ ← eraseEnergy peer module (some id)
    stripErase module ids

/-! ## The newer devices -/

/-- `SmartModule.call` (smart/smartmodule.py:162-167): the answers by method. -/
def smartCall (method : String) : PyM (List Json) Json := fun sent => (peer sent (.obj [(method, .null)]), sent ++ [.obj [(method, .null)]])

/-- `_get_status_from_energy` (smart/modules/energy.py:79-85) of an answer seen as readings, and `EmeterStatus(..)`. -/
abbrev Numbers := Json → Readings

/-- `get_status` (smart/modules/energy.py:96-103), from the data of the last update. -/
def smartGetStatus (numbers : Numbers) (data : Json) : PyM (List Json) Readings := do
  if (← PyM.lift (Ops.contains data "get_emeter_data")) then do
    let res ← smartCall peer "get_emeter_data"
    let x ← PyM.lift (Ops.item res "get_emeter_data")
    pure (numbers x)
  else do
    let res ← smartCall peer "get_energy_usage"
    let x ← PyM.lift (Ops.item res "get_energy_usage")
    PyM.lift (Emeter.statusFromEnergy (numbers x))

end

/-- `erase_stats`, `get_daily_stats`, `get_monthly_stats` of the newer devices (smart/modules/energy.py:145-162). -/
def smartPeriodic : PyM (List Json) Unit := PyM.raise .kasa

/-! ## What is supported -/

/-- `Energy.ModuleFeature` (interfaces/energy.py:18-27), a set of flags. -/
structure Flags where
  voltageCurrent : Bool
  consumptionTotal : Bool
  periodicStats : Bool
  deriving DecidableEq, Repr

/-- `ModuleFeature(0)`: the flags before the first update (interfaces/energy.py:29). -/
def Flags.none : Flags := ⟨false, false, false⟩

/-- `_supported` of `StripEmeter` (iot/iotstrip.py:189-193). -/
def Flags.strip : Flags := ⟨true, true, true⟩

/-- `supports` (interfaces/energy.py:31-33, iot/iotstrip.py:195-197): `in` of an `IntFlag`. -/
def supports (s f : Flags) : Bool :=
  (!f.voltageCurrent || s.voltageCurrent) && (!f.consumptionTotal || s.consumptionTotal) && (!f.periodicStats || s.periodicStats)

/-- `Emeter._post_update_hook` (iot/modules/emeter.py:15-30), from the data of the module: the flags it leaves, and how it ends.  The flags are
set anew before the data is read. -/
def iotHook (data : Json) : Except Exc Unit × Flags :=
  match Ops.item data "get_realtime" with
  | .error e => (.error e, ⟨false, false, true⟩)
  | .ok r =>
    match (do pure ((← Ops.contains r "voltage_mv") || (← Ops.contains r "voltage")) : Except Exc Bool) with
    | .error e => (.error e, ⟨false, false, true⟩)
    | .ok v =>
      match (do pure ((← Ops.contains r "total_wh") || (← Ops.contains r "total")) : Except Exc Bool) with
      | .error e => (.error e, ⟨v, false, true⟩)
      | .ok t => (.ok (), ⟨v, t, true⟩)

/-- `_supported` in `Energy._post_update_hook` of the newer devices (smart/modules/energy.py:22-35): nothing is taken back.  `none` is data
with an error; otherwise what `get_emeter_data` answered, if it did.  The rest of the hook does not matter here. -/
def smartHook (s : Flags) : Option (Option Readings) → Flags
  | some (some e) => if Dict.has e "voltage_mv" then { s with voltageCurrent := true } else s
  | _ => s

/-- The flags after these updates of a newer device. -/
def smartFlags : List (Option (Option Readings)) → Flags → Flags
  | [], s => s
  | u :: us, s => smartFlags us (smartHook s u)

/-- The flags after these updates of a legacy device. -/
def iotFlags : List Json → Flags → Flags
  | [], s => s
  | d :: ds, _ => iotFlags ds (iotHook d).2

end Kasa.Meter
