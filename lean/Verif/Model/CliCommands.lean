import Verif.Model.Cli
/-!
# The commands of the command line tool (cli/device.py, light.py, time.py, usage.py, schedule.py, wifi.py, hub.py,
vacuum.py, feature.py)

What a command does with a device: the methods of the library it calls, what it writes and what it asks.  The values shown
are not modelled, nor is the writing of each line: writing counts once.
-/

namespace Kasa.CliCommand

open Cli (Stop given)

/-- `LightState` as far as presets use it. -/
structure Preset where
  brightness : Option Int
  hue : Option Int
  saturation : Option Int
  colorTemp : Option Int
  deriving DecidableEq

/-- The calls of the library made by commands. -/
inductive Call where
  | turnOn (transition : Option Int)
  | turnOff (transition : Option Int)
  | setLed (on : Bool)
  | setAlias (alias : String)
  | reboot (delay : Int)
  | factoryReset
  | updateCredentials (username password : String)
  | setBrightness (value : Int) (transition : Option Int)
  | setColorTemp (value : Int) (transition : Option Int)
  | setHsv (h : Option Int) (s v : Int) (transition : Option Int)
  | setEffect (effect : String)
  | savePreset (name : String) (state : Preset)
  | setTurnOnBehavior (soft hard : Option Int)
  | setTime (date : List Int) (zone : Option String)
  | setTimeNow (zone : Option String)
  | eraseEnergy
  | eraseUsage
  | deleteRule (id : String)
  | wifiJoin (ssid password keytype : String)
  | pair (timeout : Int)
  | unpair (id : String)
  | resetConsumable (id : String)
  | setFeature (name : String) (value : Option Json)
  | update
  | getTurnOnBehavior
  | monthlyEnergy (year : Int)
  | dailyEnergy (year month : Int)
  | monthlyUsage (year : Int)
  | dailyUsage (year month : Int)
  | wifiScan
  deriving DecidableEq

/-- What a command does: writing with `echo`, writing directly (`print`, `click.echo`), asking for a confirmation, calling
the library. -/
inductive Act where
  | echo
  | print
  | ask
  | call (c : Call)
  deriving DecidableEq

/-- What a command finds in the device. -/
structure Facts where
  isOn : Bool := false
  isSmart : Bool := false
  isIot : Bool := false
  isIotBulb : Bool := false
  isHub : Bool := false
  hasChildSetup : Bool := false
  hasLed : Bool := false
  hasBrightness : Bool := false
  hasColorTemp : Bool := false
  hasHsv : Bool := false
  effects : Option (List String) := none
  /-- the names after `Not set`, and the states. -/
  presets : Option (List (String × Preset)) := none
  /-- the presets of the turn on behaviour, soft and hard. -/
  behavior : Option Int × Option Int := (none, none)
  hasTime : Bool := false
  hasEnergy : Bool := false
  periodicStats : Bool := false
  hasUsage : Bool := false
  /-- the modules with rules: the identifiers of the rules. -/
  rules : Dict String (List String) := []
  hasLogs : Bool := false
  hasRecords : Bool := false
  consumables : Option (List String) := none
  children : List String := []
  /-- the features, and whether they are actions. -/
  features : Dict String Bool := []
  deriving DecidableEq

/-- What the world answers: to the call with the given number, to the question with the given number, and what the
standard library makes of values. -/
structure Answers where
  call : Nat → Except Exc Unit
  confirm : Nat → Bool
  /-- `zoneinfo.available_timezones()`. -/
  zones : List String
  /-- `get_matching_timezones`. -/
  matching : String → List String
  /-- the zone has the offset of the local time. -/
  localOffset : String → Bool
  /-- `datetime(...)` accepts the date. -/
  validDate : List Int → Bool
  /-- `ast.literal_eval`, with `none` for a failure. -/
  literal : String → Option Json
  /-- whether the child is still there after unpairing and an update. -/
  stillThere : Bool

/-- Computations of commands, over what was done. -/
def C (α : Type) : Type := List Act → Except Stop α × List Act

instance : Monad C where
  pure x := fun l => (.ok x, l)
  bind m f := fun l =>
    match m l with
    | (.ok x, l') => f x l'
    | (.error e, l') => (.error e, l')

namespace C

/-- `raise`. -/
def stop {α : Type} (e : Stop) : C α := fun l => (.error e, l)

/-- `echo` (common.py:53-57); with `--json` it is there but writes nothing. -/
def echo : C Unit := fun l => (.ok (), l ++ [.echo])

/-- `print`, `click.echo`. -/
def print : C Unit := fun l => (.ok (), l ++ [.print])

/-- `error` (common.py:60-63). -/
def error : C Unit := do
  echo
  stop (.exit 1)

/-- A call of the library. -/
def call (a : Answers) (c : Call) : C Unit := fun l =>
  (match a.call l.length with
   | .ok _ => .ok ()
   | .error e => .error (.failed e), l ++ [.call c])

/-- `click.confirm(..., abort=True)`. -/
def confirm (a : Answers) : C Unit := fun l =>
  (if a.confirm l.length then .ok () else .error .abort, l ++ [.ask])

/-- `xs[i]` of Python. -/
def index {α : Type} (xs : List α) (i : Int) : C α :=
  match xs[(if i < 0 then i + xs.length else i).toNat]? with
  | some x => if (if i < 0 then i + xs.length else i) < 0 then stop (.failed (.other "IndexError")) else pure x
  | none => stop (.failed (.other "IndexError"))

end C

open C

/-- The commands with their arguments. -/
inductive Command where
  | state
  | sysinfo
  | on (transition : Option Int)
  | off (transition : Option Int)
  | toggle (transition : Option Int)
  | led (value : Option Bool)
  | alias (value : Option String)
  | reboot (delay : Int)
  | factoryReset
  | updateCredentials (username password : String)
  | logs
  | brightness (value : Option Int) (transition : Option Int)
  | temperature (value : Option Int) (transition : Option Int)
  | effect (value : Option String)
  | hsv (h s v : Option Int) (transition : Option Int)
  | presetsList
  | presetsModify (i : Int) (brightness hue saturation temperature : Option Int)
  | turnOnBehavior (type : Option String) (last : Bool) (preset : Option Int)
  | timeGet
  | timeSync (zone : Option String) (skipConfirm : Bool)
  | timeSet (date : List Int) (zone : Option String) (skipConfirm : Bool)
  | energy (year : Option Int) (month : Option (Int × Int)) (erase : Bool)
  | usage (year : Option Int) (month : Option (Int × Int)) (erase : Bool)
  | scheduleList (type : String)
  | scheduleDelete (id : String)
  | wifiScan
  | wifiJoin (ssid password keytype : String)
  | hubList
  | hubSupported
  | hubPair (timeout : Int)
  | hubUnpair (id : String)
  | records
  | recordsList
  | consumables
  | consumablesReset (id : String)
  | feature (name : Option String) (value : Option String)
  deriving DecidableEq

/-- `on` (cli/device.py:102-108). -/
def turnOn (a : Answers) (t : Option Int) : C Unit := do
  echo
  call a (.turnOn t)

/-- `off` (cli/device.py:111-117). -/
def turnOff (a : Answers) (t : Option Int) : C Unit := do
  echo
  call a (.turnOff t)

/-- `toggle` (cli/device.py:120-130). -/
def toggle (a : Answers) (f : Facts) (t : Option Int) : C Unit :=
  if f.isOn then turnOff a t else turnOn a t

/-- `led` (cli/device.py:133-146). -/
def led (a : Answers) (f : Facts) (value : Option Bool) : C Unit :=
  if !f.hasLed then error
  else match value with
    | some v => do
      echo
      call a (.setLed v)
    | none => echo

/-- `alias` (cli/device.py:149-166). -/
def alias (a : Answers) (value : Option String) : C Unit :=
  match value with
  | some v => do
    echo
    call a (.setAlias v)
    call a .update
    echo
  | none => echo

/-- `reboot` (cli/device.py:169-175). -/
def reboot (a : Answers) (delay : Int) : C Unit := do
  echo
  call a (.reboot delay)

/-- `factory_reset` (cli/device.py:178-186). -/
def factoryReset (a : Answers) : C Unit := do
  confirm a
  call a .factoryReset

/-- `update_credentials` (cli/device.py:189-204). -/
def updateCredentials (a : Answers) (f : Facts) (username password : String) : C Unit :=
  if !f.isSmart then error
  else do
    confirm a
    call a (.updateCredentials username password)

/-- `logs` (cli/device.py:207-214). -/
def logs (a : Answers) (f : Facts) : C Unit :=
  if f.hasLogs then do
    call a .update
    print
  else pure ()

/-- `brightness` (cli/light.py:22-39). -/
def brightness (a : Answers) (f : Facts) (value transition : Option Int) : C Unit :=
  if !f.hasBrightness then error
  else match value with
    | none => echo
    | some v => do
      echo
      call a (.setBrightness v transition)

/-- `temperature` (cli/light.py:42-69). -/
def temperature (a : Answers) (f : Facts) (value transition : Option Int) : C Unit :=
  if !f.hasColorTemp then error
  else match value with
    | none => echo
    | some v => do
      echo
      call a (.setColorTemp v transition)

/-- `effect` (cli/light.py:72-94). -/
def effect (a : Answers) (f : Facts) (value : Option String) : C Unit :=
  match f.effects with
  | none => error
  | some effects =>
    match value with
    | none => echo
    | some e =>
      if e ∈ effects then do
        echo
        call a (.setEffect e)
      else stop .usage

/-- `hsv` (cli/light.py:97-117). -/
def hsv (a : Answers) (f : Facts) (h s v transition : Option Int) : C Unit :=
  if !f.hasHsv then error
  else if h = none ∧ s = none ∧ v = none then echo
  else match s, v with
    | some s, some v => do
      echo
      call a (.setHsv h s v transition)
    | _, _ => stop .usage

/-- `presets list` (cli/light.py:120-145). -/
def presetsList (f : Facts) : C Unit :=
  match f.presets with
  | none => error
  | some _ => echo

/-- A field of the preset is changed when it has a value (cli/light.py:176-183). -/
def change (new old : Option Int) : Option Int := if new.isSome ∧ old.isSome then new else old

/-- `presets modify` (cli/light.py:148-187): `preset.temperature` does not exist, which is an `AttributeError`. -/
def presetsModify (a : Answers) (f : Facts) (i : Int) (brightness hue saturation temperature : Option Int) : C Unit :=
  match f.presets with
  | none => error
  | some presets =>
    if i > (presets.length : Int) - 1 then error
    else if brightness = none ∧ hue = none ∧ saturation = none ∧ temperature = none then error
    else do
      let name ← index ("Not set" :: presets.map (·.1)) (i + 1)
      let preset ← index (presets.map (·.2)) i
      echo
      if temperature.isSome then stop (.failed (.other "AttributeError"))
      else do
        echo
        call a (.savePreset name { preset with brightness := change brightness preset.brightness,
                                               hue := change hue preset.hue,
                                               saturation := change saturation preset.saturation })

/-- The preset of a behaviour (cli/light.py:214-219). -/
def newPreset (last : Bool) (preset old : Option Int) : Option Int :=
  if last then none else if preset.isSome then preset else old

/-- `turn_on_behavior` (cli/light.py:190-221). -/
def turnOnBehavior (a : Answers) (f : Facts) (type : Option String) (last : Bool) (preset : Option Int) : C Unit :=
  if !f.isIotBulb then error
  else do
    call a .getTurnOnBehavior
    echo
    if type = none ∧ last = false ∧ (preset = none ∨ preset = some 0) then pure ()
    else match type with
      | none => echo
      | some t => do
        echo
        if t = "soft" then call a (.setTurnOnBehavior (newPreset last preset f.behavior.1) f.behavior.2)
        else call a (.setTurnOnBehavior f.behavior.1 (newPreset last preset f.behavior.2))

/-- `_get_timezone` (cli/time.py:135-160): whether the zone is known is checked, then a question is asked (for legacy
devices). -/
def getTimezone (a : Answers) (f : Facts) (zone : String) (skipConfirm : Bool) : C Unit :=
  if zone ∉ a.zones then error
  else if !skipConfirm && f.isIot then
    if a.matching zone = [] then error
    else confirm a
  else pure ()

/-- The zone of `time sync` (cli/time.py:67-74). -/
def syncZone (a : Answers) (f : Facts) (zone : Option String) (skipConfirm : Bool) : C Unit :=
  match zone with
  | some z =>
    if z = "" then pure ()
    else do
      getTimezone a f z skipConfirm
      if !a.localOffset z then error
      else pure ()
  | none => pure ()

/-- The zone of `time set` (cli/time.py:124-125). -/
def setZone (a : Answers) (f : Facts) (zone : Option String) (skipConfirm : Bool) : C Unit :=
  match zone with
  | some z => if z = "" then pure () else getTimezone a f z skipConfirm
  | none => pure ()

/-- `time sync` (cli/time.py:41-81). -/
def timeSync (a : Answers) (f : Facts) (zone : Option String) (skipConfirm : Bool) : C Unit :=
  if !f.hasTime then echo
  else do
    syncZone a f zone skipConfirm
    echo
    call a (.setTimeNow (if given zone then zone else none))
    call a .update
    echo

/-- `time set` (cli/time.py:84-132). -/
def timeSet (a : Answers) (f : Facts) (date : List Int) (zone : Option String) (skipConfirm : Bool) : C Unit :=
  if !f.hasTime then echo
  else do
    setZone a f zone skipConfirm
    echo
    if a.validDate date then do
      call a (.setTime date (if given zone then zone else none))
      call a .update
      echo
    else stop (.failed (.other "ValueError"))

/-- `energy` (cli/usage.py:23-74).  A year is never zero. -/
def energy (a : Answers) (f : Facts) (year : Option Int) (month : Option (Int × Int)) (erase : Bool) : C Unit := do
  echo
  if !f.hasEnergy then error
  else if (year.isSome || month.isSome || erase) && !f.periodicStats then error
  else if erase then do
    echo
    call a .eraseEnergy
  else match year, month with
    | some y, _ => do
      echo
      call a (.monthlyEnergy y)
      echo
    | none, some (y, m) => do
      echo
      call a (.dailyEnergy y m)
      echo
    | none, none => echo

/-- `usage` (cli/usage.py:77-113). -/
def usage (a : Answers) (f : Facts) (year : Option Int) (month : Option (Int × Int)) (erase : Bool) : C Unit := do
  echo
  if !f.hasUsage then stop (.failed (.other "KeyError"))
  else if erase then do
    echo
    call a .eraseUsage
  else match year, month with
    | some y, _ => do
      echo
      call a (.monthlyUsage y)
      echo
    | none, some (y, m) => do
      echo
      call a (.dailyUsage y m)
      echo
    | none, none => echo

/-- `schedule list` (cli/schedule.py:21-32): the `else` belongs to the `for`, and is always run. -/
def scheduleList (f : Facts) (type : String) : C Unit :=
  match f.rules.get? type with
  | none => stop (.failed (.other "KeyError"))
  | some rules =>
    if rules = [] then error
    else do
      print
      error

/-- `schedule delete` (cli/schedule.py:35-46). -/
def scheduleDelete (a : Answers) (f : Facts) (id : String) : C Unit :=
  match f.rules.get? "schedule" with
  | none => stop (.failed (.other "KeyError"))
  | some rules =>
    if id ∈ rules then do
      echo
      call a (.deleteRule id)
    else error

/-- `wifi scan` (cli/wifi.py:23-33). -/
def wifiScan (a : Answers) : C Unit := do
  echo
  call a .wifiScan
  echo

/-- `wifi join` (cli/wifi.py:36-50). -/
def wifiJoin (a : Answers) (ssid password keytype : String) : C Unit := do
  echo
  call a (.wifiJoin ssid password keytype)
  echo

/-- The group `hub` (cli/hub.py:22-30). -/
def hub (f : Facts) (m : C Unit) : C Unit :=
  if !f.isHub then error
  else if !f.hasChildSetup then error
  else m

/-- `hub pair` (hub.py:51-71). -/
def hubPair (a : Answers) (timeout : Int) : C Unit := do
  echo
  call a (.pair timeout)
  echo

/-- `hub unpair` (hub.py:74-95). -/
def hubUnpair (a : Answers) (f : Facts) (id : String) : C Unit :=
  if id ∉ f.children then error
  else do
    call a (.unpair id)
    call a .update
    if a.stillThere then error else echo

/-- `vacuum records` and `vacuum records list` (vacuum.py:24-53). -/
def records (f : Facts) : C Unit := if !f.hasRecords then error else print

/-- `vacuum consumables` (vacuum.py:56-66). -/
def consumables (f : Facts) : C Unit :=
  match f.consumables with
  | none => error
  | some _ => print

/-- `vacuum consumables reset` (vacuum.py:56-84), with the group. -/
def consumablesReset (a : Answers) (f : Facts) (id : String) : C Unit :=
  match f.consumables with
  | none => error
  | some ids =>
    if id ∉ ids then error
    else do
      call a (.resetConsumable id)
      print

/-- `feature` (feature.py:83-154).  Reading the value of a feature is taken to succeed. -/
def feature (a : Answers) (f : Facts) (name value : Option String) : C Unit :=
  match (if given name then name else none) with
  | none => echo
  | some n =>
    match f.features.get? n with
    | none => error
    | some isAction =>
      match value with
      | none =>
        if isAction then do
          echo
          call a (.setFeature n none)
          echo
        else echo
      | some v =>
        match a.literal v with
        | none => stop .usage
        | some j => do
          echo
          call a (.setFeature n (some j))
          call a .update
          echo

/-- Run a command. -/
def runCommand (a : Answers) (f : Facts) : Command → C Unit
  | .state => echo
  | .sysinfo => echo
  | .on t => turnOn a t
  | .off t => turnOff a t
  | .toggle t => toggle a f t
  | .led v => led a f v
  | .alias v => alias a v
  | .reboot d => reboot a d
  | .factoryReset => factoryReset a
  | .updateCredentials u p => updateCredentials a f u p
  | .logs => logs a f
  | .brightness v t => brightness a f v t
  | .temperature v t => temperature a f v t
  | .effect e => effect a f e
  | .hsv h s v t => hsv a f h s v t
  | .presetsList => presetsList f
  | .presetsModify i b h s t => presetsModify a f i b h s t
  | .turnOnBehavior t l p => turnOnBehavior a f t l p
  | .timeGet => echo
  | .timeSync z s => timeSync a f z s
  | .timeSet d z s => timeSet a f d z s
  | .energy y m e => energy a f y m e
  | .usage y m e => usage a f y m e
  | .scheduleList t => scheduleList f t
  | .scheduleDelete i => scheduleDelete a f i
  | .wifiScan => wifiScan a
  | .wifiJoin s p k => wifiJoin a s p k
  | .hubList => hub f echo
  | .hubSupported => hub f echo
  | .hubPair t => hub f (hubPair a t)
  | .hubUnpair i => hub f (hubUnpair a f i)
  | .records => records f
  | .recordsList => records f
  | .consumables => consumables f
  | .consumablesReset i => consumablesReset a f i
  | .feature n v => feature a f n v

/-- A command run on a device: what it did, and how it ended. -/
def perform (a : Answers) (f : Facts) (c : Command) : Except Stop Unit × List Act := runCommand a f c []

/-- What is written by a run with `--json` (common.py:53-57, 66-95): a command's `echo` is suppressed, what it writes
directly and its questions are not, and the document follows when the command ended without an exception. -/
inductive Output where
  | text
  | document
  deriving DecidableEq

/-- The standard output of `kasa --json command`. -/
def jsonOutput (r : Except Stop Unit × List Act) : List Output :=
  (r.2.filterMap fun
    | .print | .ask => some .text
    | _ => none) ++ (match r.1 with
    | .ok _ => [.document]
    | .error _ => [])

end Kasa.CliCommand
