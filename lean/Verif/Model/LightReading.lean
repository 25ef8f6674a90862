import Verif.Model.Lights
/-!
# Reading lights (iot/iotbulb.py, iot/iotdimmer.py, iot/modules/light.py, smart/modules/brightness.py, color.py,
colortemperature.py, light.py, smart/smartdevice.py) and switching them

What a device reports is a dict of values.  Simplified: a value that is kept as it is, and is no number, is shown as
`Num.other`.
-/

namespace Kasa.LightReading
open Lights

/-- A dict reported by a device. -/
abbrev Info := List (String × PyV)

/-- `d[k]`. -/
def item (d : Info) (k : String) : Except Exc PyV :=
  match Dict.get? d k with
  | some v => .ok v
  | none => .error (.other "KeyError")

/-- A value as it is. -/
def toNum : PyV → Num
  | .num n => n
  | v => .other (onOff (some v))

/-- `int(x)`.  Simplified: strings raise. -/
def pyInt : PyV → Except Exc Num
  | .num (.int n) => .ok (.int n)
  | .num (.bool b) => .ok (.int (if b then 1 else 0))
  | .num (.float x) => .ok (.int (if 0 ≤ x then x.floor else x.ceil))
  | .num (.inf _) => .error (.other "OverflowError")
  | .num .nan => .error (.other "ValueError")
  | .num (.other _) => .error (.other "TypeError")
  | .str _ => .error (.other "ValueError")
  | _ => .error (.other "TypeError")

/-- A field of the state that is only filled for some lights (iot/modules/light.py:215-222, smart/modules/light.py:144-151). -/
def only {α : Type} (c : Bool) (x : Except Exc α) : Except Exc (Option α) :=
  if c then x.map some else .ok none

/-! ## Legacy bulbs and light strips -/

/-- `light_state` (iotbulb.py:270-287); `ls` is `sys_info["light_state"]`, a dict. -/
def lightState (ls : Info) : Except Exc Info := do
  let on ← item ls "on_off"
  if onOff (some on) then pure ls
  else
    match (← item ls "dft_on_state") with
    | .obj d => pure (Dict.set d "on_off" on)
    | _ => .error (.other "TypeError")

/-- `is_on` (iotbulb.py:495-500). -/
def bulbIsOn (ls : Info) : Except Exc Bool := do
  let d ← lightState ls
  pure (onOff (some (← item d "on_off")))

/-- `_brightness` (iotbulb.py:461-476); `effect` is the brightness of the active effect, if there is one. -/
def bulbBrightness (b : Bulb) (effect : Option (Except Exc Num)) (ls : Info) : Except Exc Num := do
  if !b.isDimmable then .error .kasa
  else
    match effect with
    | some r => r
    | none => pyInt (← item (← lightState ls) "brightness")

/-- `_hsv` (iotbulb.py:356-374) behind `Light.hsv` (iot/modules/light.py:112-120). -/
def bulbHsv (b : Bulb) (effect : Option (Except Exc Num)) (ls : Info) : Except Exc (Num × Num × Num) := do
  if !b.isColor then .error .kasa
  else
    let d ← lightState ls
    let hue ← item d "hue"
    let saturation ← item d "saturation"
    let value ← bulbBrightness b effect ls
    pure (toNum hue, toNum saturation, value)

/-- `_color_temp` (iotbulb.py:419-427) behind `Light.color_temp` (iot/modules/light.py:143-150). -/
def bulbColorTemp (b : Bulb) (ls : Info) : Except Exc Num := do
  if !b.isVariableTemp then .error .kasa
  else pyInt (← item (← lightState ls) "color_temp")

/-- `Light._post_update_hook` (iot/modules/light.py:209-223) for a bulb. -/
def bulbHook (b : Bulb) (effect : Option (Except Exc Num)) (ls : Info) : Except Exc State := do
  if (← bulbIsOn ls) then
    let brightness ← only b.isDimmable (bulbBrightness b effect ls)
    let hsv ← only b.isColor (bulbHsv b effect ls)
    let colorTemp ← only b.isVariableTemp (bulbColorTemp b ls)
    pure { lightOn := some true, brightness, hue := hsv.map (·.1), saturation := hsv.map (·.2.1), colorTemp }
  else pure { lightOn := some false }

/-- `turn_on`, `turn_off` (iotbulb.py:502-514). -/
def bulbSwitch (b : Bulb) (on : Bool) (transition : Option Num) : Except Exc Command :=
  setLightState b [("on_off", .num (.int (if on then 1 else 0)))] transition

/-! ## Legacy dimmers -/

/-- `IotPlug.is_on` (iotplug.py:68-73). -/
def plugIsOn (sys : Info) : Except Exc Bool := do
  pure (onOff (some (← item sys "relay_state")))

/-- `_brightness` (iotdimmer.py:93-104). -/
def dimmerBrightnessOf (sys : Info) : Except Exc Num := do
  match Dict.get? sys "brightness" with
  | none => .error .kasa
  | some v => pyInt v

/-- `Light._post_update_hook` (iot/modules/light.py:209-223) for a dimmer: no colours. -/
def dimmerHook (sys : Info) : Except Exc State := do
  if (← plugIsOn sys) then
    let brightness ← only (Dict.has sys "brightness") (dimmerBrightnessOf sys)
    pure { lightOn := some true, brightness }
  else pure { lightOn := some false }

/-! ## Newer lights -/

/-- `SmartDevice.is_on` (smartdevice.py:709-712). -/
def smartIsOn (info : Info) : Bool := onOff (Dict.get? info "device_on")

/-- `SmartDevice.set_state` (smartdevice.py:714-727). -/
def smartSwitch (on : Bool) : Command := setInfo [("device_on", .num (.bool on))]

/-- `Brightness.brightness` (brightness.py:41-50) behind `Light.brightness` (smart/modules/light.py:56-62); `shown` is what
the effect gives when one is active. -/
def smartBrightnessOf (l : Light) (shown : Except Exc Num) (info : Info) : Except Exc Num := do
  if !l.hasBrightness then .error .kasa
  else if l.effect.isSome then shown
  else toNum <$> item info "brightness"

/-- `d.get(k, 0)` (color.py:41-43). -/
def getOrZero (d : Info) (k : String) : Num := toNum ((Dict.get? d k).getD (.num (.int 0)))

/-- `Color.hsv` (color.py:35-49) behind `Light.hsv` (smart/modules/light.py:38-46). -/
def smartHsvOf (l : Light) (info : Info) : Except Exc (Num × Num × Num) :=
  if !l.hasColor then .error .kasa
  else .ok (getOrZero info "hue", getOrZero info "saturation", getOrZero info "brightness")

/-- `ColorTemperature.color_temp` (colortemperature.py:54-57) behind `Light.color_temp` (smart/modules/light.py:48-54). -/
def smartColorTempOf (l : Light) (info : Info) : Except Exc Num :=
  if l.tempRange.isNone then .error .kasa else toNum <$> item info "color_temp"

/-- `Light._post_update_hook` (smart/modules/light.py:138-152). -/
def smartHook (l : Light) (shown : Except Exc Num) (info : Info) : Except Exc State := do
  if smartIsOn info then
    let brightness ← only l.hasBrightness (smartBrightnessOf l shown info)
    let hsv ← only l.hasColor (smartHsvOf l info)
    let colorTemp ← only l.tempRange.isSome (smartColorTempOf l info)
    pure { lightOn := some true, brightness, hue := hsv.map (·.1), saturation := hsv.map (·.2.1), colorTemp }
  else pure { lightOn := some false }

end Kasa.LightReading
