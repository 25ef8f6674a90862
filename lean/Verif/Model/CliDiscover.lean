import Verif.Py.Monad
import Verif.Model.Redact
/-!
# What `discover` prints (cli/discover.py)

The callbacks of a search run as tasks (Model/DiscoverTasks.lean); each holds one semaphore while it updates a device and prints.  A task is
described by what it prints while it holds the semaphore, and how it ends: both depend on what the device does, so they are arbitrary.  A
schedule is a list of tasks: each occurrence is one step of that task.  `asyncio.Semaphore` serves waiting tasks in their order; here any waiting
task may get it, which allows more schedules.
-/

namespace Kasa.CliDiscover

abbrev Lines := List String

/-- What a callback prints while it holds the semaphore, and how it ends. -/
structure Piece where
  lines : Lines
  ends : Except Exc Unit

/-- Where a task is: it has not got the semaphore, it holds it and will still print these lines, or it is over. -/
inductive Phase where
  | waiting
  | holding (rest : Lines)
  | over
  deriving DecidableEq

/-- The tasks, whether one holds the semaphore, and what was printed. -/
structure Sys where
  tasks : List (Piece × Phase)
  free : Bool
  out : Lines

/-- A step of task `i` of `async with sem: …` (cli/discover.py:72-80, 87-100, 159-169): it gets the semaphore if it is free, prints a line, or ends
and releases the semaphore; a task that is over or has to wait does nothing. -/
def step (s : Sys) (i : Nat) : Sys :=
  match s.tasks[i]? with
  | none => s
  | some (p, .waiting) => if s.free then { s with tasks := s.tasks.set i (p, .holding p.lines), free := false } else s
  | some (p, .holding (l :: rest)) => { s with tasks := s.tasks.set i (p, .holding rest), out := s.out ++ [l] }
  | some (p, .holding []) => { s with tasks := s.tasks.set i (p, .over), free := true }
  | some (_, .over) => s

/-- A schedule. -/
def run (s : Sys) (schedule : List Nat) : Sys := schedule.foldl step s

/-- The start. -/
def start (pieces : List Piece) (out : Lines) : Sys := ⟨pieces.map fun p => (p, .waiting), true, out⟩

/-! ## `detail` -/

/-- `print_discovered` of `detail` (cli/discover.py:84-100): `update` is the outcome of `dev.update()`, `info` what `_echo_discovery_info` prints,
`state` what the `state` command prints and how it ends. -/
def detailDevice (update : Except Exc Unit) (info : Lines) (state : Lines × Except Exc Unit) : Piece :=
  match update with
  | .error (.auth _) => ⟨"== Authentication failed for device ==" :: info ++ ["", ""], .ok ()⟩
  | .error e => ⟨[], .error e⟩
  | .ok _ =>
    match state.2 with
    | .ok _ => ⟨state.1 ++ [""], .ok ()⟩
    | .error e => ⟨state.1, .error e⟩

/-- `print_unsupported` of `detail` (cli/discover.py:70-80): `info` is what `_echo_discovery_info` prints if there is a discovery result. -/
def detailUnsupported (info : Option Lines) (text : String) : Piece :=
  match info with
  | some info => ⟨"== Unsupported device ==" :: info ++ [""], .ok ()⟩
  | none => ⟨["== Unsupported device ==", "\t" ++ text, ""], .ok ()⟩

/-- What the callbacks of `detail` are called with. -/
inductive Found where
  | device (update : Except Exc Unit) (info : Lines) (state : Lines × Except Exc Unit)
  | unsupported (info : Option Lines) (text : String)

/-- The task for it. -/
def detailPiece : Found → Piece
  | .device u i s => detailDevice u i s
  | .unsupported i t => detailUnsupported i t

/-- `len(unsupported)` (cli/discover.py:71). -/
def unsupportedCount (fs : List Found) : Nat := (fs.filter fun f => match f with | .unsupported _ _ => true | _ => false).length

/-- `len(auth_failed)` (cli/discover.py:90-93). -/
def failedCount (fs : List Found) : Nat := (fs.filter fun f => match f with | .device (.error (.auth _)) _ _ => true | _ => false).length

/-- The summary without a host (cli/discover.py:107-114), after all callbacks. -/
def summary (devices : Nat) (fs : List Found) : Lines :=
  ["Found " ++ toString devices ++ " devices"] ++
  (if unsupportedCount fs = 0 then [] else ["Found " ++ toString (unsupportedCount fs) ++ " unsupported devices"]) ++
  (if failedCount fs = 0 then [] else ["Found " ++ toString (failedCount fs) ++ " devices that failed to authenticate"])

/-! ## `list` -/

/-- `f"{s:<n}"`. -/
def pad (n : Nat) (s : String) : String := s ++ String.ofList (List.replicate (n - s.length) ' ')

/-- The columns of a device: its host, model, and connection parameters. -/
structure Columns where
  host : String
  model : String
  family : String
  encryption : String
  https : Bool
  loginVersion : Option Nat

/-- `login_version or '-'` (cli/discover.py:157). -/
def loginText : Option Nat → String
  | none => "-"
  | some 0 => "-"
  | some (n + 1) => toString (n + 1)

/-- `infostr` (cli/discover.py:153-158): a bool with a width is printed as a number, and a login version of 0 as `-`. -/
def infostr (c : Columns) : String :=
  pad 15 c.host ++ " " ++ pad 9 c.model ++ " " ++ pad 20 c.family ++ " " ++ pad 7 c.encryption ++ " " ++ pad 5 (if c.https then "1" else "0") ++ " " ++
    pad 3 (loginText c.loginVersion)

/-- `print_discovered` of `list` (cli/discover.py:152-169): `text` is the text of an exception, `alias` the alias of the updated device. -/
def listDevice (text : Exc → String) (c : Columns) (update : Except Exc Unit) (alias : Except Exc String) : Piece :=
  match update with
  | .error (.auth _) => ⟨[infostr c ++ " - Authentication failed"], .ok ()⟩
  | .error .timeout => ⟨[infostr c ++ " - Timed out"], .ok ()⟩
  | .error e =>
    if e = .other "TimeoutError" then ⟨[infostr c ++ " - Timed out"], .ok ()⟩
    else if e.isException then ⟨[infostr c ++ " - Error: " ++ text e], .ok ()⟩
    else ⟨[], .error e⟩
  | .ok _ =>
    match alias with
    | .ok a => ⟨[infostr c ++ " " ++ a], .ok ()⟩
    | .error e => ⟨[], .error e⟩

/-- The first line of the table (cli/discover.py:175-178). -/
def tableHead : String :=
  pad 15 "HOST" ++ " " ++ pad 9 "MODEL" ++ " " ++ pad 20 "DEVICE FAMILY" ++ " " ++ pad 7 "ENCRYPT" ++ " " ++ pad 5 "HTTPS" ++ " " ++ pad 3 "LV" ++ " ALIAS"

/-! ## `raw` -/

/-- `print_raw` (cli/discover.py:131-141): the response as it is printed; `port` is that of `meta`. -/
def rawResponse (printed : List Json → String) (redacted : Bool) (port : Int) (response : Json) : Json :=
  if redacted then Redact.redact (if port = 20002 then Redact.discoveryTable printed else Redact.iotTable printed) response else response

/-! ## The end -/

/-- `_close_protocols` (cli/discover.py:44-51): the devices it calls `disconnect` on, each with how that ends, and how the command ends. -/
def closeAll (root : Bool) (devices : List (String × Except Exc Unit)) : List String × Except Exc Unit :=
  if root then
    match devices with
    | [] => ([], .ok ())
    | (host, .ok _) :: rest => let r := closeAll true rest; (host :: r.1, r.2)
    | (host, .error e) :: _ => ([host], .error e)
  else ([], .ok ())

end Kasa.CliDiscover
