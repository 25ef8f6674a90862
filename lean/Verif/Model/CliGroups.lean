import Verif.Model.IotDevice
/-!
# The commands of the command line tool, raw commands, and what is printed without `rich` (cli/lazygroup.py, cli/main.py, cli/common.py)
-/

namespace Kasa.CliGroups

/-! ## Lazy groups -/

/-- What a module of the package `kasa.cli` has under a name. -/
inductive Thing where
  | command
  | other
  deriving DecidableEq, Repr

/-- `LazyGroup` (lazygroup.py:13-22): the lazy commands with the modules they are in, and the commands of click's `Group`, sorted. -/
structure Group where
  lazy : List (String × Option String)
  base : List String

/-- A command that was found: an object of a module, or one of the group itself. -/
inductive Found where
  | loaded (module object : String)
  | own (name : String)
  deriving DecidableEq, Repr

/-- `if not import_path`: `None` and the empty text. -/
def truthy : Option String → Option String
  | none => none
  | some s => if s = "" then none else some s

/-- `_lazy_load` (lazygroup.py:55-71); `modules` are the modules of the package with what they have.  Simplified: names have no dots, so that
`rsplit` gives back the two parts. -/
def lazyLoad (modules : String → Option (String → Option Thing)) (parent : Option String) (name : String) : Except Exc Found :=
  let module := (truthy parent).getD name
  match modules module with
  | none => .error (.other "ModuleNotFoundError")
  | some things =>
    match things name with
    | none => .error (.other "AttributeError")
    | some .other => .error (.other "ValueError")
    | some .command => .ok (.loaded module name)

/-- `list_commands` (lazygroup.py:24-28). -/
def listCommands (g : Group) : List String := g.lazy.map (·.1) ++ g.base

/-- `get_command` (lazygroup.py:30-34). -/
def getCommand (modules : String → Option (String → Option Thing)) (g : Group) (name : String) : Except Exc (Option Found) :=
  match Dict.get? g.lazy name with
  | some parent => do pure (some (← lazyLoad modules parent name))
  | none => .ok (if name ∈ g.base then some (.own name) else none)

/-- `sections.setdefault(parent, [])` and `sections[parent].append(…)` (lazygroup.py:40-43). -/
def put (sections : List (Option String × List String)) (parent : Option String) (name : String) : List (Option String × List String) :=
  Dict.set sections parent ((Dict.get? sections parent).getD [] ++ [name])

/-- The sections of `format_commands` (lazygroup.py:36-53), with the names of their commands.  Simplified: without the short helps; that they are
fetched is in `formatCommands`. -/
def sections : List (String × Option String) → List (Option String × List String) → List (Option String × List String)
  | [], acc => acc
  | (name, parent) :: rest, acc => sections rest (put acc parent name)

/-- Whether all commands could be loaded (lazygroup.py:41-42). -/
def loadAll (modules : String → Option (String → Option Thing)) : List (String × Option String) → Except Exc Unit
  | [] => .ok ()
  | (name, parent) :: rest => do
    let _ ← lazyLoad modules parent name
    loadAll modules rest

/-- `format_commands` (lazygroup.py:36-53): the sections of the help. -/
def formatCommands (modules : String → Option (String → Option Thing)) (g : Group) : Except Exc (List (Option String × List String)) := do
  loadAll modules g.lazy
  pure (sections g.lazy [])

/-- The group of the tool (main.py:65-96, 390-443).  The own commands are named as click names them. -/
def tool : Group where
  lazy := [("discover", none), ("device", none), ("feature", none), ("light", none), ("wifi", none), ("time", none), ("schedule", none),
    ("usage", none), ("energy", some "usage"), ("state", some "device"), ("on", some "device"), ("off", some "device"),
    ("toggle", some "device"), ("led", some "device"), ("alias", some "device"), ("reboot", some "device"),
    ("update_credentials", some "device"), ("sysinfo", some "device"), ("presets", some "light"), ("brightness", some "light"),
    ("hsv", some "light"), ("temperature", some "light"), ("effect", some "light"), ("vacuum", some "vacuum"), ("hub", some "hub")]
  base := ["command", "raw-command", "shell"]

/-- A module with these commands, and other things. -/
def things (commands others : List String) (name : String) : Option Thing :=
  if name ∈ commands then some .command else if name ∈ others then some .other else none

/-- The modules of the package `kasa.cli`, with the commands (and some of the other things) they define at the top level: cli/usage.py:23-113,
cli/light.py:16-220, cli/device.py:24-214, cli/discover.py:36-260, cli/vacuum.py:18-80, cli/hub.py:17-95, cli/time.py:24-110,
cli/schedule.py:15-40, cli/wifi.py:17-50, cli/feature.py:18-154. -/
def cliModules : String → Option (String → Option Thing)
  | "usage" => some (things ["energy", "usage"] ["click", "error", "echo"])
  | "light" => some (things ["light", "brightness", "temperature", "effect", "hsv", "presets", "presets_list", "presets_modify", "turn_on_behavior"]
      ["click", "error", "echo"])
  | "device" => some (things ["device", "state", "sysinfo", "on", "off", "toggle", "led", "alias", "reboot", "factory_reset", "update_credentials",
      "child_logs"] ["click", "error", "echo"])
  | "discover" => some (things ["discover", "detail", "raw", "list", "config"] ["find_dev_from_alias"])
  | "vacuum" => some (things ["vacuum", "records_group", "records_list", "consumables", "reset_consumable"] ["click", "error"])
  | "hub" => some (things ["hub", "hub_list", "hub_supported", "hub_pair", "hub_unpair"] ["pretty_category"])
  | "time" => some (things ["time", "time_get", "time_sync", "time_set"] ["_get_timezone"])
  | "schedule" => some (things ["schedule", "_schedule_list", "delete_rule"] ["click", "error"])
  | "wifi" => some (things ["wifi", "scan", "join"] ["click"])
  | "feature" => some (things ["feature"] ["_echo_features", "_echo_all_features"])
  | "common" => some (things [] ["echo", "error"])
  | "lazygroup" => some (things [] ["LazyGroup"])
  | _ => none

/-- The names of the commands of the groups at the top level, as click names them; `none` for a command that is no group (same places). -/
def members : String → Option (List String)
  | "device" => some ["state", "sysinfo", "on", "off", "toggle", "led", "alias", "reboot", "factory-reset", "update-credentials", "logs"]
  | "light" => some ["brightness", "temperature", "effect", "hsv", "presets", "turn-on-behavior"]
  | "discover" => some ["detail", "raw", "list", "config"]
  | "vacuum" => some ["records", "consumables"]
  | "hub" => some ["list", "supported", "pair", "unpair"]
  | "time" => some ["get", "sync", "set"]
  | "schedule" => some ["list", "delete"]
  | "wifi" => some ["scan", "join"]
  | _ => none

/-! ## Printing without `rich` -/

/-- `[a-z]` of the regular expression (common.py:37). -/
def lower (c : Char) : Bool := decide ('a' ≤ c) && decide (c ≤ 'z')

/-- What follows letters and a bracket, if there is at least one letter (common.py:37). -/
def afterLetters (cs : List Char) : Option (List Char) :=
  match cs with
  | [] => none
  | c :: rest =>
    if lower c then
      match rest.dropWhile lower with
      | ']' :: r => some r
      | _ => none
    else none

/-- What follows a match of `\[/?[a-z]+]` (common.py:37) at the start. -/
def afterTag : List Char → Option (List Char)
  | '[' :: '/' :: cs => afterLetters cs
  | '[' :: cs => afterLetters cs
  | _ => none

theorem afterLetters_length {cs r : List Char} (h : afterLetters cs = some r) : r.length < cs.length := by
  unfold afterLetters at h
  split at h
  · cases h
  · rename_i c rest
    split at h
    · have hs : (rest.dropWhile lower).length ≤ rest.length := (List.dropWhile_sublist _).length_le
      split at h
      · rename_i x heq
        cases h
        rw [heq] at hs
        simp only [List.length_cons] at hs ⊢
        omega
      · cases h
    · cases h

theorem afterTag_length {cs r : List Char} (h : afterTag cs = some r) : r.length < cs.length := by
  unfold afterTag at h
  split at h
  · have := afterLetters_length h; simp only [List.length_cons]; omega
  · have := afterLetters_length h; simp only [List.length_cons]; omega
  · cases h

/-- `rich_formatting.sub("", message)` (common.py:37, 42-46). -/
def strip : List Char → List Char
  | [] => []
  | c :: cs =>
    match h : afterTag (c :: cs) with
    | some rest => strip rest
    | none => c :: strip cs
termination_by s => s.length
decreasing_by
  · exact afterTag_length h
  · simp

/-- `echo` (common.py:53-57) without `rich`: nothing with `--json`. -/
def echo (json : Bool) (message : List Char) : List (List Char) := if json then [] else [strip message]

/-! ## Raw commands -/

/-- The device a raw command is for: a legacy one, a newer one, or neither. -/
inductive Dev where
  | iot (send : Json → Except Exc Json) (sendNone : Except Exc Unit)
  | smart (query : Json → Except Exc Json)
  | other

/-- What a raw command does: its outcome, the requests, and what is printed. -/
structure Outcome where
  result : Except Exc Json
  sent : List Json
  printed : List (List Char)

/-- The query of a raw command (main.py:436-441).  Without a module, the request to a legacy device has the key `None`: it cannot be serialized
(orjson) or gets the key `null` (json), and no answer has the key `None`, so that `_query_helper` raises `KasaException` (iotdevice.py:266-272)
unless something else than an `Exception` is raised. -/
def query (dev : Dev) (module : Option String) (cmd : String) (parameters : Option Json) : Except Exc Json × List Json :=
  match dev, module with
  | .iot send _, some m => (Iot.queryHelper send m cmd parameters none, [Iot.createRequest m cmd parameters none])
  | .iot _ sendNone, none =>
    (match sendNone with
      | .ok _ => .error .kasa
      | .error e => .error (if e.isException then .kasa else e), [])
  | .smart q, _ => (q (.obj [(cmd, parameters.getD .null)]), [.obj [(cmd, parameters.getD .null)]])
  | .other, _ => (.error .kasa, [])

/-- `cmd_command` (main.py:422-443); `evaluate` is `ast.literal_eval` and `dumps` is `json.dumps`. -/
def command (evaluate : String → Except Exc Json) (dumps : Json → List Char) (json : Bool) (dev : Dev) (module : Option String) (cmd : String)
    (parameters : Option String) : Outcome :=
  match (parameters.map evaluate : Option (Except Exc Json)) with
  | some (.error e) => ⟨.error e, [], []⟩
  | some (.ok v) => finish (query dev module cmd (some v))
  | none => finish (query dev module cmd none)
where
  /-- `echo(json.dumps(res))` and `return res` (main.py:442-443). -/
  finish : Except Exc Json × List Json → Outcome
    | (.error e, sent) => ⟨.error e, sent, []⟩
    | (.ok res, sent) => ⟨.ok res, sent, echo json (dumps res)⟩

/-- `raw_command` (main.py:411-419): the arguments are forwarded. -/
def rawCommand (evaluate : String → Except Exc Json) (dumps : Json → List Char) (json : Bool) (dev : Dev) (module : String) (cmd : String)
    (parameters : Option String) : Outcome :=
  command evaluate dumps json dev (some module) cmd parameters

end Kasa.CliGroups
