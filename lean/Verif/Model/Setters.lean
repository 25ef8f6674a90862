import Verif.Py.Num
/-!
# Settings with a range (smart/modules/lighttransition.py, fan.py, temperaturecontrol.py, powerprotection.py,
autooff.py, iot/modules/dimmer.py)

Each setter sends one request at its end or raises before; the model gives that request or the exception.  Limits read from the
device are integers.
-/

namespace Kasa.Setters

/-- A call of a newer device. -/
def call (method : String) (params : List (String × PyV)) : Command := ⟨"", method, params⟩

/-! ## Gradual on and off -/

/-- `_State` (lighttransition.py:15-18). -/
structure Transition where
  duration : Int
  enable : Bool
  max : Int

/-- What the device reports for one direction: `fade_on_time`, `gradually_on_mode` and `max_fade_on_time` of its information, or
`duration`, `enable` and `max_duration` of `on_state`. -/
structure Reported where
  duration : Int
  enable : Bool
  max : Option Int

/-- `_post_update_hook` for one direction (lighttransition.py:104-139): the maximum is 60 if none is reported. -/
def readTransition (r : Reported) : Transition := ⟨r.duration, r.enable, r.max.getD 60⟩

/-- `turn_on_transition`, `turn_off_transition` (lighttransition.py:172-178, 207-213). -/
def Transition.reported (t : Transition) : Int := if t.enable then t.duration else 0

/-- The parameters of one direction. -/
def direction (key : String) (enable : Bool) (duration : Num) : Command :=
  call "set_on_off_gradually_info" [(key, .obj [("enable", .num (.bool enable)), ("duration", .num duration)])]

/-- `set_turn_on_transition` with `key = "on_state"`, `set_turn_off_transition` with `key = "off_state"`
(lighttransition.py:180-205, 215-246). -/
def setTransition (key : String) (t : Transition) (seconds : Num) : Except Exc Command := do
  if (← seconds.gt t.max) then .error (.other "ValueError")
  else if (← seconds.le 0) then pure (direction key false (.int t.duration))
  else pure (direction key true seconds)

/-- `set_enabled` (lighttransition.py:141-165): the requests in order. -/
def setTransitions (both : Bool) (on off : Transition) (enable : Bool) : List Command :=
  if !both then [call "set_on_off_gradually_info" [("enable", .num (.bool enable))]]
  else [direction "on_state" enable (.int on.duration), direction "off_state" enable (.int off.duration)]

/-! ## Fan -/

/-- `set_fan_speed_level` (smart/modules/fan.py:56-66). -/
def setFan (level : Num) : Except Exc Command := do
  refuseOutside level 0 4 (.other "ValueError")
  if level.eq 0 then pure (call "set_device_info" [("device_on", .num (.bool false))])
  else pure (call "set_device_info" [("device_on", .num (.bool true)), ("fan_speed_level", .num level)])

/-- `fan_speed_level` (smart/modules/fan.py:51-54). -/
def fanLevel (deviceOn : Bool) (level : Int) : Int := if deviceOn = false then 0 else level

/-! ## Thermostat -/

/-- `set_target_temperature` (temperaturecontrol.py:138-154): `frost` tells whether the device has frost protection. -/
def setTarget (lo hi : Int) (frost : Bool) (target : Num) : Except Exc Command := do
  refuseOutside target lo hi (.other "ValueError")
  pure (call "set_device_info" (("target_temp", .num target) :: if frost then [("frost_protection_on", .num (.bool false))] else []))

/-- `set_temperature_offset` (temperaturecontrol.py:161-166). -/
def setOffset (offset : Num) : Except Exc Command := do
  refuseOutside offset (-10) 10 (.other "ValueError")
  pure (call "set_device_info" [("temp_offset", .num offset)])

/-! ## Power protection -/

/-- `data` of the module (powerprotection.py:45-47): the stored protection, the largest power. -/
structure Protection where
  stored : List (String × PyV)
  max : Int

/-- `protection_threshold == 0` (powerprotection.py:98-104, 68). -/
def Protection.unset (p : Protection) : Bool :=
  match Dict.get? p.stored "protection_power" with
  | some (.num x) => x.eq 0
  | some _ => false
  | none => true

/-- `threshold and (threshold < 0 or threshold > self._max_power)` (powerprotection.py:71-74). -/
def checkThreshold (max : Int) : Option Num → Except Exc Unit
  | none => .ok ()
  | some x => if x.truthy then refuseOutside x 0 max (.other "ValueError") else .ok ()

/-- `{**stored, "enabled": enabled}`, with the threshold if there is one (powerprotection.py:76-78). -/
def protectionParams (p : Protection) (enabled : Bool) : Option Num → List (String × PyV)
  | none => Dict.set p.stored "enabled" (.num (.bool enabled))
  | some x => Dict.set (Dict.set p.stored "enabled" (.num (.bool enabled))) "protection_power" (.num x)

/-- The threshold to use (powerprotection.py:68-69); `int(max / 2)` truncates. -/
def defaultThreshold (p : Protection) (enabled : Bool) (threshold : Option Num) : Option Num :=
  match threshold with
  | some x => some x
  | none => if enabled && p.unset then some (.int (p.max.tdiv 2)) else none

/-- `set_enabled` (powerprotection.py:62-79). -/
def setProtection (p : Protection) (enabled : Bool) (threshold : Option Num) : Except Exc Command := do
  checkThreshold p.max (defaultThreshold p enabled threshold)
  pure (call "set_protection_power" (protectionParams p enabled (defaultThreshold p enabled threshold)))

/-- `_set_threshold_auto_enable` (powerprotection.py:81-86), the setter of the feature. -/
def setThresholdFeature (p : Protection) (x : Num) : Except Exc Command :=
  if x.eq 0 then setProtection p false none else setProtection p true (some x)

/-- `set_protection_threshold` (powerprotection.py:106-117). -/
def setThreshold (p : Protection) (x : Num) : Except Exc Command := do
  refuseOutside x 0 p.max (.other "ValueError")
  pure (call "set_protection_power" (Dict.set p.stored "protection_power" (.num x)))

/-! ## Auto off -/

/-- `set_enabled`, `set_delay` (autooff.py:66-82): `enable` and `delay` are the stored ones. -/
def autoOffEnabled (delay : Int) (enable : Bool) : Command :=
  call "set_auto_off_config" [("enable", .num (.bool enable)), ("delay_min", .num (.int delay))]

def autoOffDelay (enable : Bool) (delay : Num) : Command :=
  call "set_auto_off_config" [("delay_min", .num delay), ("enable", .num (.bool enable))]

/-! ## Dimmer parameters -/

/-- A command of the dimmer module of a legacy device. -/
def dimmer (method : String) (params : List (String × PyV)) : Command := ⟨"smartlife.iot.dimmer", method, params⟩

/-- `set_threshold_min` (iot/modules/dimmer.py:165-177). -/
def setDimmerThreshold (x : Num) : Except Exc Command := do
  refuseOutside x 0 51 .kasa
  pure (dimmer "calibrate_brightness" [("minThreshold", .num x)])

/-- `set_ramp_rate` (iot/modules/dimmer.py:260-270). -/
def setRamp (x : Num) : Except Exc Command := do
  refuseOutside x 10 50 .kasa
  pure (dimmer "set_button_ramp_rate" [("rampRate", .num x)])

/-- A duration as an argument: an integer is milliseconds; a `timedelta` is a number of microseconds. -/
inductive Duration where
  | ms (n : Int)
  | timedelta (us : Int)
  | other

/-- The largest `timedelta` in microseconds, and the smallest. -/
def maxDelta : Int := 999999999 * 86400000000 + 86399999999
def minDelta : Int := -999999999 * 86400000000

/-- `if isinstance(time, int): time = timedelta(milliseconds=time)` (iot/modules/dimmer.py:189-190).  What is neither raises at
the comparison. -/
def toDelta : Duration → Except Exc Int
  | .ms n => if n * 1000 < minDelta ∨ maxDelta < n * 1000 then .error (.other "OverflowError") else .ok (n * 1000)
  | .timedelta us => .ok us
  | .other => .error (.other "TypeError")

/-- `set_fade_off_time`, `set_fade_on_time` with a limit of 10 s and `fadeTime`; `set_gentle_off_time`, `set_gentle_on_time`
with a limit of 120 s and `duration` (iot/modules/dimmer.py:184-253).  `_td_to_ms` (15-21) truncates. -/
def setTime (method key : String) (limit : Int) (d : Duration) : Except Exc Command := do
  let us ← toDelta d
  if us < 0 ∨ limit < us then .error .kasa
  else pure (dimmer method [(key, .num (.int (us.tdiv 1000)))])

def setFadeOff := setTime "set_fade_off_time" "fadeTime" 10000000
def setFadeOn := setTime "set_fade_on_time" "fadeTime" 10000000
def setGentleOff := setTime "set_gentle_off_time" "duration" 120000000
def setGentleOn := setTime "set_gentle_on_time" "duration" 120000000

end Kasa.Setters
