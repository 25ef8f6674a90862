import Verif.Py.Num
/-!
# Setting lights (iot/iotbulb.py, iot/iotdimmer.py, iot/modules/light.py, smart/modules/brightness.py, color.py,
colortemperature.py, light.py, lighteffect.py, lightstripeffect.py)

Each method of the code sends one request at its end or raises before; the model gives that request or the exception.
-/

namespace Kasa.Lights

/-- `LightState` (interfaces/light.py:75-84). -/
structure State where
  lightOn : Option Bool := none
  brightness : Option Num := none
  hue : Option Num := none
  saturation : Option Num := none
  colorTemp : Option Num := none
  transition : Option Num := none

/-- `isinstance(x, int)` and `lo <= x <= hi` (iotbulb.py:395-402, color.py:75-85). -/
def checkInt (x : Num) (lo hi : Rat) : Except Exc Unit := do
  if !x.isInt then .error (.other "TypeError")
  else if (← x.between lo hi) then pure ()
  else .error (.other "ValueError")

/-- `_raise_for_invalid_brightness` (iotbulb.py:455-459, color.py:51-56). -/
def checkBrightness (x : Num) : Except Exc Unit := checkInt x 0 100

/-! ## Legacy bulbs and light strips -/

/-- What the setters of a bulb read from it. -/
structure Bulb where
  service : String
  method : String
  isColor : Bool
  isDimmable : Bool
  isVariableTemp : Bool
  model : String

/-- `TPLINK_KELVIN` (iotbulb.py:83-94): the patterns are literal prefixes. -/
def kelvin : List (String × Int × Int) :=
  [("LB130", 2500, 9000), ("LB120", 2700, 6500), ("LB230", 2500, 9000), ("KB130", 2500, 9000), ("KL130", 2500, 9000),
   ("KL125", 2500, 6500), ("KL135", 2500, 9000), ("KL120(EU)", 2700, 6500), ("KL120(US)", 2700, 5000), ("KL430", 2500, 9000)]

/-- `_valid_temperature_range` (iotbulb.py:252-269). -/
def tempRange (model : String) : Int × Int :=
  match kelvin.find? (fun r => r.1.toList.isPrefixOf model.toList) with
  | some r => r.2
  | none => (2700, 5000)

/-- `if "brightness" in state: ..` (iotbulb.py:335-336). -/
def checkState (state : List (String × PyV)) : Except Exc Unit :=
  match Dict.get? state "brightness" with
  | none => .ok ()
  | some (.num b) => checkBrightness b
  | some _ => .error (.other "TypeError")

/-- `bool(x)` for the `on_off` of a state. -/
def onOff : Option PyV → Bool
  | some (.num n) => n.truthy
  | some (.str s) => decide (s ≠ "")
  | some (.arr xs) => !xs.isEmpty
  | some (.obj kvs) => !kvs.isEmpty
  | none => false

/-- The default for `on_off` (iotbulb.py:339-340). -/
def defaultOn (state : List (String × PyV)) : List (String × PyV) :=
  if Dict.has state "on_off" then state else Dict.set state "on_off" (.num (.int 1))

/-- `ignore_default` (iotbulb.py:345-349). -/
def ignoreDefault (state : List (String × PyV)) : Int :=
  if onOff (Dict.get? state "on_off") ∧ (Dict.keys state).all (fun k => decide (k = "transition_period" ∨ k = "on_off")) then 0 else 1

/-- `_set_light_state` (iotbulb.py:327-354). -/
def setLightState (b : Bulb) (state : List (String × PyV)) (transition : Option Num) : Except Exc Command := do
  let state := match transition with | some t => Dict.set state "transition_period" (.num t) | none => state
  checkState state
  let state := defaultOn state
  pure ⟨b.service, b.method, Dict.set state "ignore_default" (.num (.int (ignoreDefault state)))⟩

/-- `_set_hsv` (iotbulb.py:376-417) behind `Light.set_hsv` (iot/modules/light.py:122-141). -/
def setHsv (b : Bulb) (hue saturation : Num) (value transition : Option Num) : Except Exc Command := do
  if !b.isColor then .error .kasa
  else
    checkInt hue 0 360
    checkInt saturation 0 100
    let state := [("hue", .num hue), ("saturation", .num saturation), ("color_temp", .num (.int 0))]
    match value with
    | some v => do
      checkBrightness v
      setLightState b (Dict.set state "brightness" (.num v)) transition
    | none => setLightState b state transition

/-- `_set_color_temp` (iotbulb.py:429-453) behind `Light.set_color_temp` (iot/modules/light.py:152-168). -/
def setColorTemp (b : Bulb) (temp : Num) (brightness transition : Option Num) : Except Exc Command := do
  if !b.isVariableTemp then .error .kasa
  else
    refuseOutside temp (tempRange b.model).1 (tempRange b.model).2 (.other "ValueError")
    match brightness with
    | some v => setLightState b [("color_temp", .num temp), ("brightness", .num v)] transition
    | none => setLightState b [("color_temp", .num temp)] transition

/-- The fields of a state that are not `None` (iot/modules/light.py:187-190), without the transition. -/
def stateDict (s : State) : List (String × PyV) :=
  let field (k : String) (v : Option Num) : List (String × PyV) := match v with | some x => [(k, .num x)] | none => []
  field "light_on" (s.lightOn.map .bool) ++ field "brightness" s.brightness ++ field "hue" s.hue ++
    field "saturation" s.saturation ++ field "color_temp" s.colorTemp

/-- `x == 0` for an optional number. -/
def isZero (x : Option Num) : Bool := match x with | some n => n.eq 0 | none => false

/-- `1 if state.light_on is None else int(state.light_on)` (iot/modules/light.py:191-199). -/
def onValue : Option Bool → Int
  | none => 1
  | some true => 1
  | some false => 0

/-- `Light.set_state` for bulbs (iot/modules/light.py:186-202). -/
def setState (b : Bulb) (s : State) : Except Exc Command :=
  let d := stateDict s
  let d :=
    if isZero s.brightness then Dict.erase (Dict.set d "on_off" (.num (.int 0))) "brightness"
    else Dict.set d "on_off" (.num (.int (onValue s.lightOn)))
  setLightState b (Dict.erase d "light_on") s.transition

/-- `Light.set_brightness` (iot/modules/light.py:100-110). -/
def setBrightness (b : Bulb) (brightness : Num) (transition : Option Num) : Except Exc Command :=
  setState b { brightness := some brightness, transition }

/-! ## Legacy dimmers -/

/-- `set_dimmer_transition` (iotdimmer.py:161-186). -/
def dimmerTransition (brightness transition : Num) : Except Exc Command := do
  checkInt brightness 0 100
  let t := if transition.eq 0 then .int 1 else transition
  if !t.isInt then .error (.other "TypeError")
  else if (← t.gt 0) then
    pure ⟨"smartlife.iot.dimmer", "set_dimmer_transition", [("brightness", .num brightness), ("duration", .num t)]⟩
  else .error (.other "ValueError")

/-- `IotPlug.turn_on`, `turn_off` (iotplug.py:75-81). -/
def relay (state : Int) : Command := ⟨"system", "set_relay_state", [("state", .num (.int state))]⟩

/-- `turn_off` (iotdimmer.py:138-146). -/
def dimmerOff (transition : Option Num) : Except Exc Command :=
  match transition with
  | some t => dimmerTransition (.int 0) t
  | none => .ok (relay 0)

/-- `turn_on` (iotdimmer.py:148-159): `current` is the brightness of the last update. -/
def dimmerOn (current : Int) (transition : Option Num) : Except Exc Command :=
  match transition with
  | some t => dimmerTransition (.int current) t
  | none => .ok (relay 1)

/-- `Light.set_state` for dimmers (iot/modules/light.py:174-184). -/
def dimmerState (current : Int) (s : State) : Except Exc Command :=
  if isZero s.brightness ∨ s.lightOn = some false then dimmerOff s.transition
  else
    match s.brightness with
    | some b =>
      if b.truthy then
        dimmerTransition b (match s.transition with | some t => if t.truthy then t else .int 0 | none => .int 0)
      else dimmerOn current s.transition
    | none => dimmerOn current s.transition

/-- `IotDimmer._set_brightness` (iotdimmer.py:106-136). -/
def dimmerBrightness (brightness : Num) (transition : Option Num) : Except Exc Command := do
  if !brightness.isInt then .error (.other "ValueError")
  else if (← brightness.between 0 100) then
    let b := if brightness.eq 0 then .int 1 else brightness
    match transition with
    | some t => dimmerTransition b t
    | none => pure ⟨"smartlife.iot.dimmer", "set_brightness", [("brightness", .num b)]⟩
  else .error (.other "ValueError")

/-! ## Newer lights -/

/-- An active effect: the kind of the bulbs, with the data of the current rule, or that of the strips. -/
inductive Effect where
  | bulb (rule : List (String × PyV)) (colors : List (List Num))
  | strip

/-- What the setters read. -/
structure Light where
  hasBrightness : Bool
  hasColor : Bool
  /-- The range of the colour temperature module, if there is one (colortemperature.py:42-53). -/
  tempRange : Option (Int × Int)
  /-- The effect, if one is active. -/
  effect : Option Effect

/-- `_replace_brightness` (smart/modules/lighteffect.py:146-152): lists shorter than four raise. -/
def replaceBrightness (b : Num) : List Num → Except Exc PyV
  | _ :: x :: y :: z :: _ => .ok (.arr [.num b, .num x, .num y, .num z])
  | _ => .error (.other "IndexError")

def replaceAll (b : Num) : List (List Num) → Except Exc (List PyV)
  | [] => .ok []
  | c :: cs => do
    let x ← replaceBrightness b c
    let xs ← replaceAll b cs
    pure (x :: xs)

/-- `set_brightness` of the effect (smart/modules/lighteffect.py:135-160, lightstripeffect.py:63-72), for a brightness that is not 0. -/
def effectBrightness (e : Effect) (b : Num) : Except Exc Command :=
  match e with
  | .bulb rule colors => do
    let cs ← replaceAll b colors
    pure ⟨"", "edit_dynamic_light_effect_rule", Dict.set rule "color_status_list" (.arr cs)⟩
  | .strip => .ok ⟨"", "set_lighting_effect", [("brightness", .num b), ("bAdjusted", .num (.bool true))]⟩

/-- A call of `set_device_info`. -/
def setInfo (params : List (String × PyV)) : Command := ⟨"", "set_device_info", params⟩

/-- `Brightness.set_brightness` (brightness.py:52-76) behind `Light.set_brightness` (smart/modules/light.py:102-115).  `turn_off` is
smartdevice.py:725-727. -/
def smartBrightness (l : Light) (b : Num) : Except Exc Command := do
  if !l.hasBrightness then .error .kasa
  else if !b.isInt then .error (.other "ValueError")
  else if (← b.between 0 100) then
    if b.eq 0 then pure (setInfo [("device_on", .num (.bool false))])
    else
      match l.effect with
      | some e => effectBrightness e b
      | none => pure (setInfo [("brightness", .num b)])
  else .error (.other "ValueError")

/-- `Color.set_hsv` (color.py:58-99) behind `Light.set_hsv` (smart/modules/light.py:64-84). -/
def smartHsv (l : Light) (hue saturation : Num) (value : Option Num) : Except Exc Command := do
  if !l.hasColor then .error .kasa
  else
    checkInt hue 0 360
    checkInt saturation 0 100
    match value with
    | some v => do
      checkBrightness v
      pure (setInfo [("color_temp", .num (.int 0)), ("hue", .num hue), ("saturation", .num saturation), ("brightness", .num v)])
    | none => pure (setInfo [("color_temp", .num (.int 0)), ("hue", .num hue), ("saturation", .num saturation)])

/-- `ColorTemperature.set_color_temp` (colortemperature.py:59-71) behind `Light.set_color_temp` (smart/modules/light.py:86-100). -/
def smartColorTemp (l : Light) (temp : Num) (brightness : Option Num) : Except Exc Command := do
  match l.tempRange with
  | none => .error .kasa
  | some (lo, hi) => do
    refuseOutside temp lo hi (.other "ValueError")
    match brightness with
    | some b => pure (setInfo ([("color_temp", .num temp)] ++ if b.truthy then [("brightness", .num b)] else []))
    | none => pure (setInfo [("color_temp", .num temp)])

/-- `Light.set_state` (smart/modules/light.py:117-131). -/
def smartState (s : State) : Command :=
  let transition : List (String × PyV) := match s.transition with | some t => [("transition", .num t)] | none => []
  let d := stateDict s ++ transition
  setInfo (
    if isZero s.brightness then Dict.set (Dict.erase d "brightness") "device_on" (.num (.bool false))
    else
      match s.lightOn with
      | some on => Dict.set (Dict.erase d "light_on") "device_on" (.num (.bool on))
      | none => Dict.set d "device_on" (.num (.bool true)))

end Kasa.Lights
