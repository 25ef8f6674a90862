import Verif.Model.Settings
/-!
# Specification: a device that stores what it is sent
-/

namespace Kasa.SettingsSpec
open Settings Setters Thermostat

/-- The settings, as the owner sees them. -/
structure Wishes where
  autoOff : Bool
  delay : Int
  ledRule : String
  autoUpdate : Bool
  protect : Bool
  threshold : Int
  childProtection : Bool
  childLock : Bool
  unit : String
  on : Bool
  speed : Int
  sleep : Bool

/-- What the owner may do. -/
inductive Op where
  | autoOff (on : Bool)
  | delay (minutes : Int)
  | led (on : Bool)
  | autoUpdate (on : Bool)
  | protect (on : Bool) (threshold : Option Int)
  | threshold (watts : Int)
  | childProtection (on : Bool)
  | childLock (on : Bool)
  | unit (u : String)
  | fan (level : Int)
  | sleep (on : Bool)

/-- What it means; thresholds outside 0 to `max` and levels outside 0 to 4 are refused, and power protection that is
switched on without a threshold gets half of the largest. -/
def Wishes.apply (max : Int) (w : Wishes) : Op → Wishes
  | .autoOff on => { w with autoOff := on }
  | .delay n => { w with delay := n }
  | .led on => { w with ledRule := if on then "always" else "never" }
  | .autoUpdate on => { w with autoUpdate := on }
  | .protect on none => { w with protect := on, threshold := if on ∧ w.threshold = 0 then max / 2 else w.threshold }
  | .protect on (some t) => if 0 ≤ t ∧ t ≤ max then { w with protect := on, threshold := t } else w
  | .threshold t => if 0 ≤ t ∧ t ≤ max then { w with threshold := t } else w
  | .childProtection on => { w with childProtection := on }
  | .childLock on => { w with childLock := on }
  | .unit u => { w with unit := u }
  | .fan n => if n = 0 then { w with on := false } else if 0 ≤ n ∧ n ≤ 4 then { w with on := true, speed := n } else w
  | .sleep on => { w with sleep := on }

/-- What the library sends. -/
def send (d : Data) : Op → Except Exc Command
  | .autoOff on => setAutoOff d on
  | .delay n => setDelay d n
  | .led on => .ok (setLed d on)
  | .autoUpdate on => .ok (setAutoUpdate d on)
  | .protect on t => setProtection d.power on (t.map .int)
  | .threshold t => setThreshold d.power (.int t)
  | .childProtection on => .ok (setChildProtection on)
  | .childLock on => .ok (setChildLock on)
  | .unit u => .ok (setTemperatureUnit u)
  | .fan n => setFan (.int n)
  | .sleep on => .ok (setSleepMode on)

/-- The device stores the fields it is sent. -/
def obey (d : Data) (c : Command) : Data :=
  match c.method with
  | "set_device_info" => { d with info := Dict.update d.info c.params }
  | "set_temperature_unit" => { d with info := Dict.update d.info c.params }
  | "set_child_protection" =>
    match Dict.get? c.params "enable" with
    | some v => { d with info := Dict.set d.info "child_protection" v }
    | none => d
  | "set_auto_off_config" => { d with autoOff := Dict.update d.autoOff c.params }
  | "set_led_info" => { d with led := Dict.update d.led c.params }
  | "set_auto_update_info" => { d with autoUpdate := Dict.update d.autoUpdate c.params }
  | "set_protection_power" => { d with power := { d.power with stored := Dict.update d.power.stored c.params } }
  | "setChildLockInfo" => { d with childLock := Dict.update d.childLock c.params }
  | _ => d

/-- The device and what the library has read of it. -/
structure World where
  device : Data
  read : Data

/-- A setting, an update, or a change made by someone else. -/
inductive Ev where
  | op (o : Op)
  | update
  | other (c : Command)

def step (w : World) : Ev → World
  | .op o =>
    match send w.read o with
    | .ok c => { w with device := obey w.device c }
    | .error _ => w
  | .update => { w with read := w.device }
  | .other c => { w with device := obey w.device c }

/-- The dicts of a device. -/
inductive Group where
  | info | autoOff | led | autoUpdate | power | childLock
  deriving DecidableEq

def look (d : Data) : Group → String → Option PyV
  | .info, k => Dict.get? d.info k
  | .autoOff, k => Dict.get? d.autoOff k
  | .led, k => Dict.get? d.led k
  | .autoUpdate, k => Dict.get? d.autoUpdate k
  | .power, k => Dict.get? d.power.stored k
  | .childLock, k => Dict.get? d.childLock k

def flag (b : Bool) : PyV := .num (.bool b)

def int (n : Int) : PyV := .num (.int n)

/-- The fields an operation is about, with their new values. -/
def named (read : Data) : Op → Group × List (String × PyV)
  | .autoOff on => (.autoOff, [("enable", flag on)])
  | .delay n => (.autoOff, [("delay_min", int n)])
  | .led on => (.led, [("led_rule", .str (if on then "always" else "never"))])
  | .autoUpdate on => (.autoUpdate, [("enable", flag on)])
  | .protect on none =>
    (.power, ("enabled", flag on) :: if on && read.power.unset then [("protection_power", int (read.power.max.tdiv 2))] else [])
  | .protect on (some t) => (.power, [("enabled", flag on), ("protection_power", int t)])
  | .threshold t => (.power, [("protection_power", int t)])
  | .childProtection on => (.info, [("child_protection", flag on)])
  | .childLock on => (.childLock, [("child_lock_status", flag on)])
  | .unit u => (.info, [("temp_unit", .str u)])
  | .fan n => (.info, if n = 0 then [("device_on", flag false)] else [("device_on", flag true), ("fan_speed_level", int n)])
  | .sleep on => (.info, [("fan_sleep_mode_on", flag on)])

/-- The dicts that are sent as a whole, or with all their settings. -/
def resent : Group → Bool
  | .autoOff | .led | .autoUpdate | .power => true
  | .info | .childLock => false

/-- No dict has a key twice. -/
structure Proper (d : Data) : Prop where
  led : Dict.WF d.led
  autoUpdate : Dict.WF d.autoUpdate
  power : Dict.WF d.power.stored

/-- The device stores the wishes. -/
structure Holds (max : Int) (d : Data) (w : Wishes) : Prop where
  autoOff : look d .autoOff "enable" = some (flag w.autoOff)
  delay : look d .autoOff "delay_min" = some (int w.delay)
  led : look d .led "led_rule" = some (.str w.ledRule)
  autoUpdate : look d .autoUpdate "enable" = some (flag w.autoUpdate)
  protect : look d .power "enabled" = some (flag w.protect)
  threshold : look d .power "protection_power" = some (int w.threshold) ∨
    (look d .power "protection_power" = none ∧ w.threshold = 0)
  max : d.power.max = max
  childProtection : look d .info "child_protection" = some (flag w.childProtection)
  childLock : look d .childLock "child_lock_status" = some (flag w.childLock)
  unit : look d .info "temp_unit" = some (.str w.unit)
  on : look d .info "device_on" = some (flag w.on)
  speed : look d .info "fan_speed_level" = some (int w.speed)
  sleep : look d .info "fan_sleep_mode_on" = some (flag w.sleep)

/-- The groups with several settings. -/
def groupOf : Op → Option Group
  | .autoOff _ => some .autoOff
  | .delay _ => some .autoOff
  | .protect _ _ => some .power
  | .threshold _ => some .power
  | _ => none

/-- Of the two settings of auto off, and of the two of power protection, none is made between another and an update; `dirty`
are those set since the last update. -/
def Fresh : List Group → List (Option Op) → Prop
  | _, [] => True
  | _, none :: es => Fresh [] es
  | dirty, some o :: es =>
    match groupOf o with
    | some g => g ∉ dirty ∧ Fresh (g :: dirty) es
    | none => Fresh dirty es

/-- Operations, and updates. -/
def play (w : World) : Option Op → World
  | some o => step w (.op o)
  | none => step w .update

def wish (max : Int) (w : Wishes) : Option Op → Wishes
  | some o => w.apply max o
  | none => w

end Kasa.SettingsSpec
