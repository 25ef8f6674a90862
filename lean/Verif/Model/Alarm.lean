import Verif.Py.Num
/-!
# Alarms (smart/modules/alarm.py, smartcam/modules/alarm.py)
-/

namespace Kasa.Alarm

/-- `VOLUME_INT_TO_STR` (smart/modules/alarm.py:14-19). -/
def volumes : List (Int × String) := [(0, "mute"), (1, "low"), (2, "normal"), (3, "high")]

/-- `VOLUME_INT_TO_STR.get(volume, "invalid")` for an integer; `True` is 1 (smart/modules/alarm.py:240-241). -/
def volumeOf (i : Int) : String :=
  match volumes.find? (fun p => p.1 == i) with
  | some p => p.2
  | none => "invalid"

/-- The name of a volume before the check (smart/modules/alarm.py:240-241).  What is no integer stays; a number that is none
becomes none of the names. -/
def volumeName : PyV → Option String
  | .num (.int i) => some (volumeOf i)
  | .num (.bool b) => some (volumeOf (if b then 1 else 0))
  | .str s => some s
  | _ => none

/-- `_check_and_convert_volume` (smart/modules/alarm.py:238-252). -/
def checkVolume (v : PyV) : Except Exc String :=
  match volumeName v with
  | some s => if volumes.any (fun p => p.2 == s) then .ok s else .error (.other "ValueError")
  | none => .error (.other "ValueError")

/-- `_check_duration` (smart/modules/alarm.py:254-257). -/
def checkDuration (d : Num) : Except Exc Unit := refuseOutside d 1 600 (.other "ValueError")

/-- `_check_sound` (smart/modules/alarm.py:259-262). -/
def checkSound (sounds : List String) (s : String) : Except Exc Unit :=
  if sounds.contains s then pure () else .error (.other "ValueError")

/-- The configuration last read, and the sounds the device has (smart/modules/alarm.py:33-38). -/
structure Data where
  config : List (String × PyV)
  sounds : List String

def configure (params : List (String × PyV)) : Command := ⟨"", "set_alarm_configure", params⟩

/-- `set_alarm_sound` (smart/modules/alarm.py:143-151). -/
def setSound (d : Data) (s : String) : Except Exc Command := do
  checkSound d.sounds s
  pure (configure (Dict.set d.config "type" (.str s)))

/-- `set_alarm_volume` (smart/modules/alarm.py:170-177): the argument is sent, not the converted one. -/
def setVolume (d : Data) (v : PyV) : Except Exc Command := do
  let _ ← checkVolume v
  pure (configure (Dict.set d.config "volume" v))

/-- `set_alarm_duration` (smart/modules/alarm.py:184-191). -/
def setDuration (d : Data) (x : Num) : Except Exc Command := do
  checkDuration x
  pure (configure (Dict.set d.config "duration" (.num x)))

/-- `alarm_volume` (smart/modules/alarm.py:158-168): `VOLUME_STR_TO_INT[..]`; a list or object cannot be a key. -/
def readVolume (config : List (String × PyV)) : Except Exc Int :=
  match Dict.get? config "volume" with
  | some (.str s) =>
    match volumes.find? (fun p => p.2 == s) with
    | some p => .ok p.1
    | none => .error (.other "KeyError")
  | some (.num _) => .error (.other "KeyError")
  | some _ => .error (.other "TypeError")
  | none => .error (.other "KeyError")

/-- `if duration is not None: ..` (smart/modules/alarm.py:220-222). -/
def playDuration (params : List (String × PyV)) : Option Num → Except Exc (List (String × PyV))
  | some x => do
    checkDuration x
    pure (Dict.set params "alarm_duration" (.num x))
  | none => pure params

/-- `if volume is not None: ..` (smart/modules/alarm.py:224-226). -/
def playVolume (params : List (String × PyV)) : Option PyV → Except Exc (List (String × PyV))
  | some v => do
    let name ← checkVolume v
    pure (Dict.set params "alarm_volume" (.str name))
  | none => pure params

/-- `if sound is not None: ..` (smart/modules/alarm.py:228-230). -/
def playSound (sounds : List String) (params : List (String × PyV)) : Option String → Except Exc (List (String × PyV))
  | some s => do
    checkSound sounds s
    pure (Dict.set params "alarm_type" (.str s))
  | none => pure params

/-- `play` (smart/modules/alarm.py:204-232). -/
def play (d : Data) (duration : Option Num) (volume : Option PyV) (sound : Option String) : Except Exc Command := do
  let params ← playDuration [] duration
  let params ← playVolume params volume
  let params ← playSound d.sounds params sound
  pure ⟨"", "play_alarm", params⟩

/-! ## Cameras -/

/-- `str(volume)`; the texts of floats are not modelled but given. -/
def text (floatText : Num → String) : Num → String
  | .int i => toString i
  | .bool b => if b then "True" else "False"
  | x => floatText x

/-- A sound that is given and is not `""` (smartcam/modules/alarm.py:194, 209). -/
def given : Option String → Option String
  | some s => if s = "" then none else some s
  | none => none

def checkGiven (sounds : List String) : Option String → Except Exc Unit
  | some s => checkSound sounds s
  | none => pure ()

def checkOptional (x : Option Num) (lo hi : Rat) : Except Exc Unit :=
  match x with
  | some x => refuseOutside x lo hi (.other "ValueError")
  | none => pure ()

/-- `_validate_and_get_config` (smartcam/modules/alarm.py:187-216). -/
def camConfig (floatText : Num → String) (sounds : List String) (duration volume : Option Num) (sound : Option String) :
    Except Exc (List (String × PyV)) := do
  checkGiven sounds (given sound)
  checkOptional duration 0 6000
  checkOptional volume 0 10
  pure ((match given sound with | some s => [("siren_type", .str s)] | none => []) ++
    (match duration with | some d => [("duration", .num d)] | none => []) ++
    (match volume with | some v => [("volume", .str (text floatText v))] | none => []))

/-- `call("setSirenConfig", {"siren": config})`. -/
def sirenConfig (config : List (String × PyV)) : Command := ⟨"", "setSirenConfig", [("siren", .obj config)]⟩

/-- `call("setSirenStatus", {"siren": {"status": ..}})` (smartcam/modules/alarm.py:181, 185). -/
def sirenStatus (s : String) : Command := ⟨"", "setSirenStatus", [("siren", .obj [("status", .str s)])]⟩

/-- `set_alarm_sound`, `set_alarm_volume`, `set_alarm_duration` (smartcam/modules/alarm.py:115-122, 137-143, 150-156): one of the
three is given. -/
def camSet (floatText : Num → String) (sounds : List String) (duration volume : Option Num) (sound : Option String) : Except Exc Command := do
  pure (sirenConfig (← camConfig floatText sounds duration volume sound))

/-- `play` (smartcam/modules/alarm.py:163-181): what it sends, in order, if the device takes all. -/
def camPlay (floatText : Num → String) (sounds : List String) (duration volume : Option Num) (sound : Option String) :
    Except Exc (List Command) := do
  let config ← camConfig floatText sounds duration volume sound
  pure ((if config.isEmpty then [] else [sirenConfig config]) ++ [sirenStatus "on"])

/-- `int(..)` of a text, for plain digits (smartcam/modules/alarm.py:130-135).  Signs, spaces and underscores are not modelled. -/
def camReadVolume (config : List (String × PyV)) : Except Exc Nat :=
  match Dict.get? config "volume" with
  | some (.str s) =>
    if s.toList.all Char.isDigit && !s.toList.isEmpty then .ok (Nat.ofDigitChars 10 s.toList 0) else .error (.other "ValueError")
  | some _ => .error (.other "TypeError")
  | none => .error (.other "KeyError")

end Kasa.Alarm
