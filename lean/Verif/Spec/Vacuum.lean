import Verif.Model.Vacuum
/-!
# Specification: a robot that does what it is told

The robot cleans, pauses, drives home.  Pausing a robot that cleans, or cancelling the way home of one that drives home,
makes it stand still; a paused robot that is told to go on goes on where it was, and one that is told to clean starts from
the beginning.
-/

namespace Kasa.VacuumSpec
open Vacuum

/-- The robot: what it does, how much of the floor is done, and the errors it shows. -/
structure Robot where
  status : Status
  progress : Nat
  errors : List Int
  deriving DecidableEq

/-- The number a robot reports for its status. -/
def statusCode : Status → Int
  | .idle => 0
  | .cleaning => 1
  | .mapping => 2
  | .goingHome => 4
  | .charging => 5
  | .charged => 6
  | .paused => 7
  | .undocked => 8
  | .error => 100
  | .unknownInternal => -1000

/-- The status with a number; a number without a status is "unknown". -/
def namedStatus (n : Int) : Status :=
  if n = 0 then .idle else if n = 1 then .cleaning else if n = 2 then .mapping else if n = 4 then .goingHome
  else if n = 5 then .charging else if n = 6 then .charged else if n = 7 then .paused else if n = 8 then .undocked
  else if n = 100 then .error else .unknownInternal

/-- The error with a number; a number without an error is "unknown". -/
def namedError (n : Int) : ErrorCode :=
  if n = 0 then .ok else if n = 2 then .sideBrushStuck else if n = 3 then .mainBrushStuck else if n = 4 then .wheelBlocked
  else if n = 6 then .trapped else if n = 7 then .trappedCliff else if n = 14 then .dustBinRemoved
  else if n = 15 then .unableToMove else if n = 16 then .lidarBlocked else if n = 21 then .unableToFindDock
  else if n = 22 then .batteryLow else .unknownInternal

/-- What the robot answers to `getVacStatus`. -/
def Robot.report (r : Robot) : Json :=
  .obj [("err_status", .arr (r.errors.map .num)), ("status", .num (statusCode r.status))]

/-- What the robot does when it is called. -/
def Robot.obey (r : Robot) (c : Call) : Robot :=
  match c.method, c.params with
  | "setSwitchClean", p =>
    if Json.get? p "clean_on" = some (.bool true) then { r with status := .cleaning, progress := 0 } else r
  | "setRobotPause", p =>
    if Json.get? p "pause" = some (.bool true) then
      if r.status = .cleaning ∨ r.status = .mapping then { r with status := .paused } else r
    else if r.status = .paused then { r with status := .cleaning } else r
  | "setSwitchCharge", p =>
    if Json.get? p "switch_charge" = some (.bool true) then { r with status := .goingHome }
    else if r.status = .goingHome then { r with status := .paused } else r
  | _, _ => r

/-- Does the robot show no error?  It may report an empty list, or "0". -/
def Robot.fine (r : Robot) : Prop := r.errors = [] ∨ ∃ rest, r.errors = 0 :: rest

/-! ## Settings -/

/-- The settings, as the owner sees them. -/
structure Prefs where
  fan : String
  water : String
  count : Int
  boost : Bool
  /-- Is the bin emptied automatically, and how? -/
  auto : Bool
  emptying : String
  deriving DecidableEq

/-- What the owner may do. -/
inductive Op where
  | fan (name : String)
  | water (name : String)
  | count (n : Int)
  | boost (on : Bool)
  | dust (name : String)
  | auto (on : Bool)

def fanNames : List String := ["Quiet", "Standard", "Turbo", "Max", "Ultra"]
def waterNames : List String := ["Disable", "Low", "Medium", "High"]
def emptyingNames : List String := ["Smart", "Light", "Balanced", "Max"]

/-- The numbers that the names stand for. -/
def fanNumbers : List (String × Int) := [("Quiet", 1), ("Standard", 2), ("Turbo", 3), ("Max", 4), ("Ultra", 5)]
def waterNumbers : List (String × Int) := [("Disable", 0), ("Low", 1), ("Medium", 2), ("High", 3)]
def emptyingNumbers : List (String × Int) := [("Smart", 0), ("Light", 1), ("Balanced", 2), ("Max", 3)]

/-- A name that is not listed changes nothing. -/
def Prefs.apply (p : Prefs) : Op → Prefs
  | .fan n => if n ∈ fanNames then { p with fan := n } else p
  | .water n => if n ∈ waterNames then { p with water := n } else p
  | .count n => { p with count := n }
  | .boost on => { p with boost := on }
  | .dust n =>
    if n = "Off" then { p with auto := false }
    else if n ∈ emptyingNames then { p with auto := true, emptying := n } else p
  | .auto on => { p with auto := on }

/-- Is the operation accepted? -/
def Op.listed : Op → Prop
  | .fan n => n ∈ fanNames
  | .water n => n ∈ waterNames
  | .dust n => n = "Off" ∨ n ∈ emptyingNames
  | _ => True

/-- What the device stores, and what the library has of it after an update. -/
structure Store where
  attr : Dict String Json
  carpet : Dict String Json
  dust : Dict String Json

/-- The device stores the fields it is sent. -/
def Store.obey (s : Store) (c : Call) : Store :=
  match c.method, c.params with
  | "setCleanAttr", .obj p => { s with attr := s.attr.update (Dict.erase p "type") }
  | "setCarpetClean", .obj p => { s with carpet := s.carpet.update p }
  | "setDustCollectionInfo", .obj p => { s with dust := s.dust.update p }
  | _, _ => s

/-- The call that an operation makes when the library's data is `s`. -/
def send (s : Store) : Op → Except Exc Call
  | .fan n => setFanSpeed n
  | .water n => setWaterlevel (.obj s.attr) n
  | .count n => setCleanCount n
  | .boost on => setCarpetBoost on
  | .dust n => setDustMode (.obj s.dust) n
  | .auto on => setAutoCollection (.obj s.dust) on

/-- An operation of a library whose data is `known`, on the device. -/
def Store.step (s known : Store) (op : Op) : Store :=
  match send known op with
  | .ok c => s.obey c
  | .error _ => s

/-- The device after operations, each after an update. -/
def Store.after (s : Store) (ops : List Op) : Store := ops.foldl (fun s op => s.step s op) s

/-- What the library shows. -/
structure Shown (s : Store) (p : Prefs) : Prop where
  fan : fanSpeed (.obj s.attr) = .ok p.fan
  water : waterlevel (.obj s.attr) = .ok p.water
  count : cleanCount (.obj s.attr) = .ok (.num p.count)
  boost : carpetBoost (.obj s.carpet) = .ok p.boost
  auto : autoCollection (.obj s.dust) = .ok (.bool p.auto)
  dust : dustMode (.obj s.dust) = .ok (if p.auto then p.emptying else "Off")

end Kasa.VacuumSpec
