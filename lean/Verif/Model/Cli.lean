import Verif.Model.Config
import Verif.Model.Exceptions
/-!
# The command line tool: from the options to the device (cli/main.py, cli/common.py, cli/discover.py)

One run of `kasa`.  What the network, the devices and the subcommands do is given by a `Surroundings`; what the run did is
a list of events.

Not modelled: the parsing of the arguments (asyncclick), `--help`, the logging options, and what is written to the
terminal apart from being text or a JSON document.
-/

namespace Kasa.Cli

open Config

/-- What stops a command: an error of usage of click, `sys.exit`, `click.Abort` (a declined or interrupted prompt), or an
exception (`.base` being `KeyboardInterrupt` and the like). -/
inductive Stop where
  | usage
  | exit (code : Nat)
  | abort
  | failed (e : Exc)

/-- The options of `kasa` which choose the device (main.py:101-225).  `subcommand` is `ctx.invoked_subcommand`. -/
structure Options where
  host : Option String := none
  port : Option Int := none
  alias : Option String := none
  target : String := "255.255.255.255"
  type : Option String := none
  encryptType : Option String := none
  https : Bool := false
  family : String := "SMART.TAPOPLUG"
  loginVersion : Int := 2
  json : Bool := false
  timeout : Int := 5
  username : Option String := none
  password : Option String := none
  hash : Option String := none
  subcommand : Option String := none
  deriving DecidableEq

/-- Where a device object comes from. -/
inductive Source where
  | legacy (cls : String)
  | connected (params : ConnParams)
  | named (alias : String)
  | discovered
  deriving DecidableEq

/-- A device object, with what it was made of.  A host of `none` is the value `None`. -/
structure Handle where
  host : Option String
  source : Source
  port : Option Int
  timeout : Option Int
  credentials : Option Credentials
  hash : Option String
  deriving DecidableEq

/-- What a run does. -/
inductive Event where
  | text
  | document
  | single (host : String) (port : Option Int) (credentials : Option Credentials)
  | all (target : String) (credentials : Option Credentials)
  | find (alias target : String) (credentials : Option Credentials)
  | connect (h : Handle)
  | update (h : Handle)
  | state (h : Handle)
  | command (name : String) (h : Option Handle)
  | disconnect (h : Handle)
  deriving DecidableEq

/-- What the world answers to the event with the given number. -/
structure Surroundings where
  /-- `Discover.discover_single`: a device or not. -/
  single : Nat → Except Exc Bool
  /-- `Discover.discover`: whether there was any device. -/
  all : Nat → Except Exc Bool
  /-- `find_dev_from_alias`: the host of the device found. -/
  find : Nat → Except Exc (Option String)
  /-- `Device.connect`. -/
  connect : Nat → Except Exc Unit
  /-- `Device.update`. -/
  update : Nat → Except Exc Unit
  /-- the `state` command. -/
  state : Nat → Except Stop Unit
  /-- the subcommand, with the pieces of text it wrote by itself. -/
  command : Nat → Except Stop Unit
  /-- `Device.disconnect`. -/
  disconnect : Nat → Except Exc Unit

/-- The state of a run: what it did, and the device registered for closing (main.py:379). -/
structure World where
  log : List Event
  held : Option Handle

/-- Computations of the tool. -/
def M (α : Type) : Type := World → Except Stop α × World

instance : Monad M where
  pure x := fun w => (.ok x, w)
  bind m f := fun w =>
    match m w with
    | (.ok x, w') => f x w'
    | (.error e, w') => (.error e, w')

/-- `raise`. -/
def stop {α : Type} (e : Stop) : M α := fun w => (.error e, w)

/-- Do something, and get the answer to it. -/
def act {α : Type} (e : Event) (answer : Nat → Except Stop α) : M α := fun w =>
  (answer w.log.length, { w with log := w.log ++ [e] })

/-- An exception of the library raised in a command. -/
def raised {α : Type} : Except Exc α → Except Stop α
  | .ok x => .ok x
  | .error e => .error (.failed e)

/-- `echo` (common.py:53-57): nothing is written with `--json`. -/
def echo (o : Options) : M Unit := if o.json then pure () else act .text fun _ => .ok ()

/-- `error` (common.py:60-63). -/
def error {α : Type} (o : Options) : M α := do
  echo o
  stop (.exit 1)

/-- An `if` without `else`. -/
def doIf (c : Bool) (m : M Unit) : M Unit := if c then m else pure ()

/-- `bool(x)` of an option. -/
def given : Option String → Bool
  | some s => s ≠ ""
  | none => false

/-- `Credentials(username, password) if username and password else None` (discover.py:205). -/
def credentials (o : Options) : Option Credentials :=
  match o.username, o.password with
  | some u, some p => if u ≠ "" ∧ p ≠ "" then some ⟨u, p⟩ else none
  | _, _ => none

/-- `_discover_is_root_cmd` (discover.py:54-59). -/
def isRoot (o : Options) : Bool := o.subcommand = none ∨ o.subcommand = some "discover"

/-- The device of `Discover.discover_single` (cli/discover.py:210-218): the hash of the credentials is not passed. -/
def discoveredHandle (o : Options) (host : String) : Handle :=
  { host := some host, source := .discovered, port := o.port, timeout := some o.timeout, credentials := credentials o,
    hash := none }

/-- `print_discovered` (discover.py:84-100). -/
def printDiscovered (env : Surroundings) (o : Options) (h : Handle) : M Unit := do
  let r ← act (.update h) fun n =>
    match env.update n with
    | .ok _ => .ok true
    | .error (.auth _) => .ok false
    | .error e => .error (.failed e)
  (if r then act (.state h) env.state else echo o : M Unit)
  echo o

/-- `discover` invoked by `cli` with a host: `detail`, `_discover` and the result callback `_close_protocols`
(discover.py:44-51, 62-116, 207-224).  Only used without a subcommand of `discover`. -/
def discoverHost (env : Surroundings) (o : Options) (host : String) : M (Option Handle) := do
  echo o
  let found ← act (.single host o.port (credentials o)) fun n => raised (env.single n)
  if found then
    if isRoot o then
      printDiscovered env o (discoveredHandle o host)
      act (.disconnect (discoveredHandle o host)) fun n => raised (env.disconnect n)
      pure (some (discoveredHandle o host))
    else
      pure (some (discoveredHandle o host))
  else
    pure none

/-- `discover` invoked by `cli` without a host (discover.py:44-51, 62-116, 225-238): whether any device was found.  The
devices found are shown and closed within the event. -/
def discoverAll (env : Surroundings) (o : Options) : M Bool := do
  echo o
  let r ← act (.all o.target (credentials o)) fun n => raised (env.all n)
  echo o
  pure r

/-- `TYPE_TO_CLASS` (main.py:56-63). -/
def legacyClass : String → String
  | "plug" => "IotPlug"
  | "switch" => "IotWallSwitch"
  | "bulb" => "IotBulb"
  | "dimmer" => "IotDimmer"
  | "strip" => "IotStrip"
  | _ => "IotLightStrip"

/-- The connection parameters of `--type smart`, `--type camera` and `--encrypt-type` (main.py:312-334); an unknown family
is a `ValueError`. -/
def params (o : Options) : Except Exc ConnParams := do
  let camera := o.type = some "camera"
  let family := if camera then "SMART.IPCAMERA" else o.family
  let encryption := if camera then "AES" else if given o.encryptType then o.encryptType.getD "" else "KLAP"
  let f ← Family.ofJson (.str family)
  let e ← Encryption.ofJson (.str encryption)
  pure { family := f, encryption := e, loginVersion := some (if camera then 2 else o.loginVersion),
         https := camera || o.https, httpPort := none }

/-- The device of `--type` with a legacy type (main.py:309-310). -/
def legacyHandle (o : Options) : Handle :=
  { host := o.host, source := .legacy (legacyClass (o.type.getD "")), port := o.port, timeout := some o.timeout,
    credentials := none, hash := none }

/-- The device of `Device.connect` (main.py:335-343). -/
def connectedHandle (o : Options) (p : ConnParams) : Handle :=
  { host := o.host, source := .connected p, port := o.port, timeout := some o.timeout, credentials := credentials o,
    hash := o.hash }

/-- The device of `find_dev_from_alias` (main.py:350-352). -/
def namedHandle (o : Options) (host : String) : Handle :=
  { host := some host, source := .named (o.alias.getD ""), port := none, timeout := none, credentials := credentials o,
    hash := none }

/-- What choosing the device gave: nothing at all, or a device, whether it has been updated and whether it was found with
`discover`. -/
inductive Choice where
  | nothing
  | device (h : Handle) (updated discovered : Bool)

/-- The checks of the options (main.py:255-256, 276-301). -/
def checks (env : Surroundings) (o : Options) : M Bool := do
  if o.target ≠ "255.255.255.255" ∧ given o.host then error o
  else if o.subcommand = some "discover" then pure false
  else if o.alias.isSome ∧ o.host.isSome then stop .usage
  else if given o.password ≠ given o.username then stop .usage
  else if o.host = none ∧ o.alias = none then
    if given o.subcommand then error o
    else do
      echo o
      let _ ← discoverAll env o
      pure false
  else pure true

/-- The choice of the device (main.py:303-365). -/
def choose (env : Surroundings) (o : Options) : M Choice := do
  if o.type.isSome ∧ o.type ≠ some "smart" ∧ o.type ≠ some "camera" then
    pure (.device (legacyHandle o) false false)
  else if o.type.isSome ∨ (o.family ≠ "" ∧ given o.encryptType) then
    match params o with
    | .error e => stop (.failed e)
    | .ok p => do
      act (.connect (connectedHandle o p)) fun n => raised (env.connect n)
      pure (.device (connectedHandle o p) true false)
  else if given o.alias then do
    echo o
    let found ← act (.find (o.alias.getD "") o.target (credentials o)) fun n => raised (env.find n)
    echo o
    match found with
    | none => pure .nothing
    | some host => pure (.device (namedHandle o host) true false)
  else if given o.host then do
    match ← discoverHost env o (o.host.getD "") with
    | none => error o
    | some h => pure (.device h false true)
  else do
    let any ← discoverAll env o
    if any then stop (.failed (.other "KeyError")) else error o

/-- `SKIP_UPDATE_COMMANDS` (common.py:25). -/
def skipsUpdate (sub : Option String) : Bool := sub = some "raw-command" ∨ sub = some "command"

/-- The rest of `cli` (main.py:367-387): what the subcommand gets as its object. -/
def opened (env : Surroundings) (o : Options) : Choice → M (Option Handle)
  | .nothing => pure none
  | .device h updated discovered => do
    doIf (!skipsUpdate o.subcommand && !updated) (act (.update h) fun n => raised (env.update n))
    fun w => (.ok (), { w with held := some h })
    doIf (o.subcommand = none ∧ !discovered) (act (.state h) env.state)
    pure (some h)

/-- `cli` (main.py:228-387), without `--help`. -/
def cli (env : Surroundings) (o : Options) : M (Option Handle) := do
  if ← checks env o then
    opened env o (← choose env o)
  else
    pure none

/-- The group: its callback, the subcommand, and the formatter of the results (asyncclick; common.py:66-95). -/
def group (env : Surroundings) (o : Options) : M Unit := do
  let h ← cli env o
  doIf (given o.subcommand) (act (.command (o.subcommand.getD "") h) env.command)
  doIf o.json (act .document fun _ => .ok ())

/-- The exit status (common.py:237-250, 272-285; `main` of asyncclick). -/
def status : Except Stop Unit → Nat
  | .ok _ => 0
  | .error .usage => 2
  | .error (.exit c) => c
  | .error .abort => 0
  | .error (.failed _) => 1

/-- One run of the tool: the registered device is closed when the context is left (main.py:372-379); an exception there
replaces the outcome. -/
def run (env : Surroundings) (o : Options) : Nat × List Event :=
  match group env o { log := [], held := none } with
  | (r, w) =>
    match w.held with
    | none => (status r, w.log)
    | some h =>
      match env.disconnect w.log.length with
      | .ok _ => (status r, w.log ++ [.disconnect h])
      | .error e => (status (.error (.failed e)), w.log ++ [.disconnect h])

/-! ## `find_dev_from_alias` (discover.py:341-385) -/

/-- What happens during the search: the answer of a device arrives and its `update` is started, an update ends (with the
alias shown by the device), a discovery round ends, or it raises (which ends the task, unnoticed). -/
inductive Step where
  | arrives (host : String)
  | updated (host : String) (result : Except Exc (Option String))
  | roundEnds
  | roundFails

/-- The state of a search: the hosts seen, those being asked, those found, and the rounds left; `over` once the event is
set. -/
structure Search where
  seen : List String
  asking : List String
  found : List String
  rounds : Nat
  over : Bool
  /-- the hosts `update` was called for, for the specification. -/
  asked : List String

/-- The start: `range(1, attempts)` has two members (discover.py:346, 372). -/
def Search.start : Search := { seen := [], asking := [], found := [], rounds := 2, over := false, asked := [] }

/-- `on_discovered` and `do_discover` (cli/discover.py:353-381). -/
def searchStep (lower : String → String) (alias : String) (s : Search) : Step → Search
  | .arrives host =>
    if host ∈ s.seen then s
    else { s with seen := host :: s.seen, asking := host :: s.asking, asked := host :: s.asked }
  | .updated host result =>
    if host ∈ s.asking then
      let s := { s with asking := s.asking.erase host }
      match result with
      | .error _ => s
      | .ok none => s
      | .ok (some a) =>
        if a ≠ "" ∧ lower a = lower alias then { s with found := s.found ++ [host], over := true } else s
    else s
  | .roundEnds =>
    match s.rounds with
    | 0 => s
    | 1 => { s with rounds := 0, over := true }
    | n + 2 => { s with rounds := n + 1 }
  | .roundFails => { s with rounds := 0 }

/-- The search until its end (discover.py:383-385): the caller wakes when the event is set, and takes the first device
found. -/
def search (lower : String → String) (alias : String) : Search → List Step → Option (Option String)
  | s, [] => if s.over then some s.found.head? else none
  | s, e :: rest => if s.over then some s.found.head? else search lower alias (searchStep lower alias s e) rest

end Kasa.Cli
