import Verif.Model.LightReading
/-!
# Specification: a light that does what it is told

A light is on or off and has four settings.  A caller sets, switches or restores it.  The devices store what they are told;
how a legacy bulb reports its settings depends on whether it is on.
-/

namespace Kasa.LightReadingSpec
open Lights LightReading

/-- The light, as its owner sees it. -/
structure Lamp where
  on : Bool
  brightness : Int
  hue : Int
  saturation : Int
  colorTemp : Int
  deriving DecidableEq

/-- A `LightState` made of integers. -/
structure Setting where
  lightOn : Option Bool := none
  brightness : Option Int := none
  hue : Option Int := none
  saturation : Option Int := none
  colorTemp : Option Int := none
  transition : Option Int := none

def Setting.toState (s : Setting) : State where
  lightOn := s.lightOn
  brightness := s.brightness.map .int
  hue := s.hue.map .int
  saturation := s.saturation.map .int
  colorTemp := s.colorTemp.map .int
  transition := s.transition.map .int

/-- What a caller may do: `light.set_brightness`, `set_hsv`, `set_color_temp`, `set_state`, `device.turn_on`/`turn_off`. -/
inductive Op where
  | brightness (x : Int) (transition : Option Int)
  | hsv (hue saturation : Int) (value transition : Option Int)
  | colorTemp (x : Int) (brightness transition : Option Int)
  | state (s : Setting)
  | switch (on : Bool) (transition : Option Int)

/-! ## What an operation does to the light -/

/-- For legacy bulbs: brightness 0 switches off; every other setting switches on. -/
def Lamp.bulb (p : Lamp) : Op → Lamp
  | .brightness x _ => if x = 0 then { p with on := false } else { p with on := true, brightness := x }
  | .hsv h s v _ =>
    { on := true, hue := h, saturation := s, colorTemp := 0, brightness := v.getD p.brightness }
  | .colorTemp x b _ => { p with on := true, colorTemp := x, brightness := b.getD p.brightness }
  | .state s =>
    { on := s.lightOn.getD true && s.brightness != some 0
      brightness := if s.brightness = some 0 then p.brightness else s.brightness.getD p.brightness
      hue := s.hue.getD p.hue
      saturation := s.saturation.getD p.saturation
      colorTemp := s.colorTemp.getD p.colorTemp }
  | .switch on _ => { p with on }

/-- For newer lights: setting the brightness or the colour alone does not switch on. -/
def Lamp.smart (p : Lamp) : Op → Lamp
  | .brightness x _ => if x = 0 then { p with on := false } else { p with brightness := x }
  | .hsv h s v _ => { p with hue := h, saturation := s, colorTemp := 0, brightness := v.getD p.brightness }
  | .colorTemp x b _ =>
    { p with colorTemp := x, brightness := if b = some 0 then p.brightness else b.getD p.brightness }
  | .state s => p.bulb (.state s)
  | .switch on _ => { p with on }

/-- For dimmers, which have no colour; the brightness that comes with "off" is ignored. -/
def Lamp.dimmer (p : Lamp) : Op → Lamp
  | .brightness x _ => if x = 0 then { p with on := false } else { p with on := true, brightness := x }
  | .state s =>
    if s.brightness = some 0 ∨ s.lightOn = some false then { p with on := false }
    else { p with on := true, brightness := s.brightness.getD p.brightness }
  | .switch on _ => { p with on }
  | _ => p

/-! ## The calls -/

def bulbSend (b : Bulb) : Op → Except Exc Command
  | .brightness x t => setBrightness b (.int x) (t.map .int)
  | .hsv h s v t => setHsv b (.int h) (.int s) (v.map .int) (t.map .int)
  | .colorTemp x v t => setColorTemp b (.int x) (v.map .int) (t.map .int)
  | .state s => setState b s.toState
  | .switch on t => bulbSwitch b on (t.map .int)

/-- Newer lights ignore transitions, except in a `LightState`. -/
def smartSend (l : Light) : Op → Except Exc Command
  | .brightness x _ => smartBrightness l (.int x)
  | .hsv h s v _ => smartHsv l (.int h) (.int s) (v.map .int)
  | .colorTemp x v _ => smartColorTemp l (.int x) (v.map .int)
  | .state s => .ok (smartState s.toState)
  | .switch on _ => .ok (smartSwitch on)

/-- `current` is the brightness at the last update. -/
def dimmerSend (current : Int) : Op → Except Exc Command
  | .brightness x t => dimmerState current { brightness := some (.int x), transition := t.map .int }
  | .state s => dimmerState current s.toState
  | .switch true t => dimmerOn current (t.map .int)
  | .switch false t => dimmerOff (t.map .int)
  | _ => .error .kasa

/-! ## The devices -/

/-- A legacy bulb stores the parameters of its own command. -/
def bulbObey (b : Bulb) (d : Info) (c : Command) : Info :=
  if c.target = b.service ∧ c.method = b.method then Dict.update d c.params else d

/-- `light_state` in what a legacy bulb reports. -/
def bulbReport (d : Info) : Info :=
  if onOff (Dict.get? d "on_off") then d else [("on_off", .num (.int 0)), ("dft_on_state", .obj d)]

/-- A newer light stores the parameters of `set_device_info`. -/
def smartObey (d : Info) (c : Command) : Info :=
  if c.method = "set_device_info" then Dict.update d c.params else d

/-- A dimmer: relay, brightness, and both at once; brightness 0 opens the relay. -/
def dimmerObey (d : Info) (c : Command) : Info :=
  if c.target = "system" ∧ c.method = "set_relay_state" then
    match Dict.get? c.params "state" with
    | some v => Dict.set d "relay_state" v
    | none => d
  else if c.target = "smartlife.iot.dimmer" ∧ c.method = "set_dimmer_transition" then
    match Dict.get? c.params "brightness" with
    | some v =>
      if onOff (some v) then Dict.set (Dict.set d "relay_state" (.num (.int 1))) "brightness" v
      else Dict.set d "relay_state" (.num (.int 0))
    | none => d
  else d

/-! ## The device is in the state of the light -/

structure BulbHolds (d : Info) (p : Lamp) : Prop where
  on : Dict.get? d "on_off" = some (.num (.int (if p.on then 1 else 0)))
  brightness : Dict.get? d "brightness" = some (.num (.int p.brightness))
  hue : Dict.get? d "hue" = some (.num (.int p.hue))
  saturation : Dict.get? d "saturation" = some (.num (.int p.saturation))
  colorTemp : Dict.get? d "color_temp" = some (.num (.int p.colorTemp))

structure SmartHolds (d : Info) (p : Lamp) : Prop where
  on : Dict.get? d "device_on" = some (.num (.bool p.on))
  brightness : Dict.get? d "brightness" = some (.num (.int p.brightness))
  hue : Dict.get? d "hue" = some (.num (.int p.hue))
  saturation : Dict.get? d "saturation" = some (.num (.int p.saturation))
  colorTemp : Dict.get? d "color_temp" = some (.num (.int p.colorTemp))

structure DimmerHolds (d : Info) (p : Lamp) : Prop where
  on : Dict.get? d "relay_state" = some (.num (.int (if p.on then 1 else 0)))
  brightness : Dict.get? d "brightness" = some (.num (.int p.brightness))

/-- What `light.state` should be, for a light that can be dimmed, has colours, or has white temperatures. -/
def shown (dims colours temps : Bool) (p : Lamp) : Setting :=
  if p.on then
    { lightOn := some true
      brightness := if dims then some p.brightness else none
      hue := if colours then some p.hue else none
      saturation := if colours then some p.saturation else none
      colorTemp := if temps then some p.colorTemp else none }
  else { lightOn := some false }

/-! ## Histories -/

/-- The device after some operations; those refused send nothing. -/
def after (send : Op → Except Exc Command) (obey : Info → Command → Info) (d : Info) (ops : List Op) : Info :=
  ops.foldl (fun d op => match send op with | .ok c => obey d c | .error _ => d) d

/-- The light after some operations, without those refused. -/
def lampAfter (send : Op → Except Exc Command) (apply : Lamp → Op → Lamp) (p : Lamp) (ops : List Op) : Lamp :=
  ops.foldl (fun p op => match send op with | .ok _ => apply p op | .error _ => p) p

/-- The same for a dimmer that is updated before each operation: the brightness known is the one reported. -/
def dimmerAfter (d : Info) (ops : List Op) : Info :=
  ops.foldl (fun d op =>
    match dimmerBrightnessOf d with
    | .ok (.int current) => (match dimmerSend current op with | .ok c => dimmerObey d c | .error _ => d)
    | _ => d) d

def dimmerLampAfter (p : Lamp) (ops : List Op) : Lamp :=
  ops.foldl (fun p op => match dimmerSend p.brightness op with | .ok _ => p.dimmer op | .error _ => p) p

end Kasa.LightReadingSpec
