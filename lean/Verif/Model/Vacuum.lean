import Verif.Py.Ops
/-!
# Robot vacuums (smart/modules/clean.py, dustbin.py, mop.py)

Each operation sends one call, `self.call(method, params)`; a setter returns the call it sends, or the exception it raises
before sending anything.  Simplified: warnings that are logged only once are left out.
-/

namespace Kasa.Vacuum

/-- A call to the device. -/
structure Call where
  method : String
  params : Json

/-- `Status` (clean.py:17-30). -/
inductive Status where
  | idle | cleaning | mapping | goingHome | charging | charged | paused | undocked | error | unknownInternal
  deriving DecidableEq, Repr

/-- `ErrorCode` (clean.py:33-48). -/
inductive ErrorCode where
  | ok | sideBrushStuck | mainBrushStuck | wheelBlocked | trapped | trappedCliff | dustBinRemoved | unableToMove
  | lidarBlocked | unableToFindDock | batteryLow | unknownInternal
  deriving DecidableEq, Repr

/-- The members of `Status` and their values (clean.py:20-30). -/
def statusTable : List (Int × Status) :=
  [(0, .idle), (1, .cleaning), (2, .mapping), (4, .goingHome), (5, .charging), (6, .charged), (7, .paused),
   (8, .undocked), (100, .error), (-1000, .unknownInternal)]

/-- The members of `ErrorCode` and their values (clean.py:36-48). -/
def errorTable : List (Int × ErrorCode) :=
  [(0, .ok), (2, .sideBrushStuck), (3, .mainBrushStuck), (4, .wheelBlocked), (6, .trapped), (7, .trappedCliff),
   (14, .dustBinRemoved), (15, .unableToMove), (16, .lidarBlocked), (21, .unableToFindDock), (22, .batteryLow),
   (-1000, .unknownInternal)]

/-- `FanSpeed` (clean.py:51-58). -/
def fanTable : List (String × Int) := [("Quiet", 1), ("Standard", 2), ("Turbo", 3), ("Max", 4), ("Ultra", 5)]

/-- `Waterlevel` (mop.py:16-22). -/
def waterTable : List (String × Int) := [("Disable", 0), ("Low", 1), ("Medium", 2), ("High", 3)]

/-- `Mode` (dustbin.py:14-22). -/
def dustTable : List (String × Int) := [("Smart", 0), ("Light", 1), ("Balanced", 2), ("Max", 3), ("Off", -1000)]

/-- The integer a value is equal to, if any: `True` is 1. -/
def asInt : Json → Option Int
  | .num n => some n
  | .bool b => some (if b then 1 else 0)
  | _ => none

/-- `Enum(value)`, `none` when it raises `ValueError`. -/
def member {α : Type} (table : List (Int × α)) (v : Json) : Option α :=
  (asInt v).bind fun n => Dict.get? table n

/-- `Enum(value).name` for a table of names; `ValueError` for other values. -/
def nameOf (table : List (String × Int)) (v : Json) : Except Exc String :=
  match (asInt v).bind fun n => table.find? (fun p => p.2 == n) with
  | some p => .ok p.1
  | none => .error (.other "ValueError")

/-- Can the value be put into a set? -/
def hashable : Json → Bool
  | .arr _ => false
  | .obj _ => false
  | _ => true

/-- A code in an enum with a member for unknown codes (clean.py:244-254, 364-372).  A list or dict is no member and cannot
be looked up in the set of codes already warned about. -/
def codeOr {α : Type} (table : List (Int × α)) (unknown : α) (v : Json) : Except Exc α :=
  match member table v with
  | some a => .ok a
  | none => if hashable v then .ok unknown else .error (.other "TypeError")

/-- `_post_update_hook` (clean.py:226-254): the error code, and the list of errors that is left in the data, from which
the first was taken. -/
def errorHook (vacStatus : Json) : Except Exc (ErrorCode × Json) :=
  match vacStatus with
  | .obj kvs =>
    match Dict.get? kvs "err_status" with
    | none => .ok (.ok, vacStatus)
    | some v =>
      if !v.truthy then .ok (.ok, vacStatus)
      else
        match v with
        | .arr (e :: rest) =>
          (codeOr errorTable .unknownInternal e).map fun c => (c, .obj (Dict.set kvs "err_status" (.arr rest)))
        | .obj _ => .error (.other "KeyError")
        | .str _ => .error (.other "AttributeError")
        | _ => .error (.other "TypeError")
  | _ => .error (.other "AttributeError")

/-- `status` (clean.py:357-372). -/
def status (code : ErrorCode) (vacStatus : Json) : Except Exc Status :=
  if code ≠ .ok then .ok .error
  else (Ops.item vacStatus "status").bind (codeOr statusTable .unknownInternal)

/-- `set_pause` (clean.py:296-298). -/
def setPause (on : Bool) : Call := ⟨"setRobotPause", .obj [("pause", .bool on)]⟩

/-- `set_return_home` (clean.py:304-306). -/
def setReturnHome (on : Bool) : Call := ⟨"setSwitchCharge", .obj [("switch_charge", .bool on)]⟩

/-- `start` (clean.py:268-283). -/
def start (code : ErrorCode) (vacStatus : Json) : Except Exc Call :=
  (status code vacStatus).map fun s =>
    if s = .paused then setPause false
    else ⟨"setSwitchClean", .obj [("clean_mode", .num 0), ("clean_on", .bool true), ("clean_order", .bool true),
      ("force_clean", .bool false)]⟩

/-- `pause` (clean.py:285-290). -/
def pause (code : ErrorCode) (vacStatus : Json) : Except Exc Call :=
  (status code vacStatus).map fun s => if s = .goingHome then setReturnHome false else setPause true

/-- `return_home` (clean.py:300-302). -/
def returnHome : Call := setReturnHome true

/-! ## Settings -/

/-- `_change_setting` with the default scope (clean.py:327-335). -/
def changeSetting (name : String) (value : Int) : Call :=
  ⟨"setCleanAttr", .obj [(name, .num value), ("type", .str "global")]⟩

/-- `fan_speed_preset` (clean.py:313-316). -/
def fanSpeed (attr : Json) : Except Exc String := (Ops.item attr "suction").bind (nameOf fanTable)

/-- `set_fan_speed_preset` (clean.py:318-325). -/
def setFanSpeed (speed : String) : Except Exc Call :=
  match Dict.get? fanTable speed with
  | some v => .ok (changeSetting "suction" v)
  | none => .error (.other "ValueError")

/-- `clean_count` (clean.py:404-407). -/
def cleanCount (attr : Json) : Except Exc Json := Ops.item attr "clean_number"

/-- `set_clean_count` (clean.py:409-411). -/
def setCleanCount (n : Int) : Except Exc Call := .ok (changeSetting "clean_number" n)

/-- `carpet_boost` (clean.py:374-377). -/
def carpetBoost (carpet : Json) : Except Exc Bool :=
  (Ops.item carpet "carpet_clean_prefer").map fun v => decide (v = .str "boost")

/-- `set_carpet_boost` (clean.py:379-382). -/
def setCarpetBoost (on : Bool) : Except Exc Call :=
  .ok ⟨"setCarpetClean", .obj [("carpet_clean_prefer", .str (if on then "boost" else "normal"))]⟩

/-- `int(x)`.  Simplified: every string raises. -/
def pyInt (v : Json) : Except Exc Int :=
  match asInt v with
  | some n => .ok n
  | none => .error (.other (match v with | .str _ => "ValueError" | _ => "TypeError"))

/-- `waterlevel` (mop.py:77-80). -/
def waterlevel (attr : Json) : Except Exc String := do
  let n ← pyInt (← Ops.item attr "cistern")
  nameOf waterTable (.num n)

/-- `x.copy()` of a dict, with one field replaced (mop.py:88-89, dustbin.py:112-114, 125-126). -/
def withField (x : Json) (k : String) (v : Json) : Except Exc Json :=
  match x with
  | .obj kvs => .ok (.obj (Dict.set kvs k v))
  | _ => .error (.other "AttributeError")

/-- `set_waterlevel` (mop.py:82-90). -/
def setWaterlevel (attr : Json) (mode : String) : Except Exc Call :=
  match Dict.get? waterTable mode with
  | none => .error (.other "ValueError")
  | some v => (withField attr "cistern" (.num v)).map fun p => ⟨"setCleanAttr", p⟩

/-- `auto_collection` (dustbin.py:118-121). -/
def autoCollection (dust : Json) : Except Exc Json := Ops.item dust "auto_dust_collection"

/-- `mode` (dustbin.py:93-98). -/
def dustMode (dust : Json) : Except Exc String := do
  let auto ← autoCollection dust
  if auto = .bool false then pure "Off"
  else nameOf dustTable (← Ops.item dust "dust_collection_mode")

/-- `set_auto_collection` (dustbin.py:123-127). -/
def setAutoCollection (dust : Json) (on : Bool) : Except Exc Call :=
  (withField dust "auto_dust_collection" (.bool on)).map fun p => ⟨"setDustCollectionInfo", p⟩

/-- `set_mode` (dustbin.py:100-116). -/
def setDustMode (dust : Json) (mode : String) : Except Exc Call :=
  match Dict.get? dustTable mode with
  | none => .error (.other "ValueError")
  | some v =>
    if mode = "Off" then setAutoCollection dust false
    else do
      let p ← withField dust "auto_dust_collection" (.bool true)
      let p ← withField p "dust_collection_mode" (.num v)
      pure ⟨"setDustCollectionInfo", p⟩

/-! ## Cleaning records -/

/-- The last cleaning, as the records module shows it (cleanrecords.py:23-49): timestamp, minutes, area, emptied. -/
structure LastClean where
  timestamp : Json
  cleanTime : Json
  cleanArea : Json
  dustCollection : Json
  deriving DecidableEq

/-- `ldr[i]` (cleanrecords.py:91-94). -/
def nth (x : Json) (i : Nat) : Except Exc Json :=
  match x with
  | .arr xs => match xs[i]? with
    | some v => .ok v
    | none => .error (.other "IndexError")
  | .str _ => .error (.other "IndexError")
  | .obj _ => .error (.other "KeyError")
  | _ => .error (.other "TypeError")

/-- `__pre_deserialize__` (cleanrecords.py:87-96): the data as it is left, which is the dict that was given. -/
def preDeserialize (data : Json) : Except Exc Json :=
  match data with
  | .obj d =>
    match Dict.get? d "lastest_day_record" with
    | none => .ok data
    | some ldr =>
      if !ldr.truthy then .ok data
      else do
        let t ← nth ldr 0
        let m ← nth ldr 1
        let a ← nth ldr 2
        let c ← nth ldr 3
        pure (.obj (Dict.set d "lastest_day_record"
          (.obj [("timestamp", t), ("clean_time", m), ("clean_area", a), ("dust_collection", c)])))
  | _ => .error (.other "AttributeError")

/-- The part of `_post_update_hook` that reads the last cleaning (cleanrecords.py:105-109), and the data it leaves behind.
Simplified: the conversions of the four fields, the totals and the list of records are left out; a record that is no dict
or lacks a field raises a `ValueError` of the deserializer. -/
def recordsHook (data : Json) : Except Exc (LastClean × Json) := do
  let d ← preDeserialize data
  let r := (Json.get? d "lastest_day_record").getD .null
  match Json.get? r "timestamp", Json.get? r "clean_time", Json.get? r "clean_area", Json.get? r "dust_collection" with
  | some t, some m, some a, some c => pure (⟨t, m, a, c⟩, d)
  | _, _, _, _ => .error (.other "ValueError")

end Kasa.Vacuum
