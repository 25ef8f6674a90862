import Verif.Model.Effects
import Verif.Model.Names
/-!
# Light effects (smart/modules/lighteffect.py, smart/modules/lightstripeffect.py, iot/modules/lighteffect.py)

The protocol is the environment of `Verif.Model.Names`.  Each module reads the answers of the last update, which are
arguments here.  `allow_update_after` only resets a time stamp (modelled in `Verif.Model.SmartModule`) and is left out.
-/

namespace Kasa.LightEffects
open PyM Ops Names

/-- `LIGHT_EFFECTS_OFF` (interfaces/lighteffect.py:53). -/
def off : String := "Off"

/-- `LIGHT_EFFECTS_UNNAMED_CUSTOM` (interfaces/lighteffect.py:54). -/
def custom : String := "Custom"

section
variable {σ : Type} (env : Env σ)

/-- `SmartModule.call` (smartmodule.py:162-167, smartdevice.py:694-695). -/
def call (method : String) (params : Json) : PyM (St σ) Json := query env (.obj [(method, params)])

/-! ## Bulbs -/

/-- `AVAILABLE_BULB_EFFECTS` (smart/modules/lighteffect.py:21-24). -/
def bulbEffects : Dict String String := [("L1", "Party"), ("L2", "Relax")]

/-- What the hook leaves behind: `_effect_state_list`, `_effect_list`, `_scenes_names_to_id`, `_effect`
(smart/modules/lighteffect.py:26-29). -/
structure Bulb where
  states : Dict String (List (String × Json))
  effectList : List String
  namesToId : Dict String String
  effect : String

/-- `effect["id"]`.  Simplified: an id that is no string is an error. -/
def ruleId (rule : List (String × Json)) : Except Exc String :=
  match Dict.get? rule "id" with
  | some (.str s) => .ok s
  | some _ => .error (.other "TypeError")
  | none => .error (.other "KeyError")

/-- An element of `rule_list`: `effect["id"]` needs a dict. -/
def asRule (x : Json) : Except Exc (List (String × Json)) :=
  match x with
  | .obj kvs => .ok kvs
  | _ => .error (.other "TypeError")

/-- The name shown for an effect (smart/modules/lighteffect.py:37-45): an unedited effect has a fixed name; otherwise it is
decoded, or, after `binascii.Error`, kept. -/
def sceneName (id : String) (x : Json) : Except Exc String :=
  if x.truthy then
    match unb64 x with
    | .ok s => .ok s
    | .error e =>
      if e = .other "binascii.Error" then
        match x with
        | .str s => .ok s
        | _ => .error e
      else .error e
  else
    match Dict.get? bulbEffects id with
    | some n => .ok n
    | none => .error (.other "KeyError")

/-- One turn of the loop (smart/modules/lighteffect.py:36-45): the name of the effect, and the effect with that name. -/
def named (entry : String × List (String × Json)) : Except Exc (String × List (String × Json)) := do
  match Dict.get? entry.2 "scene_name" with
  | none => .error (.other "KeyError")
  | some x => do
    let name ← sceneName entry.1 x
    pure (name, Dict.set entry.2 "scene_name" (.str name))

/-- `{effect["id"]: effect for effect in ..}` (smart/modules/lighteffect.py:33-35). -/
def byId (rules : List Json) : Except Exc (Dict String (List (String × Json))) := do
  let entries ← rules.mapM fun x => do
    let rule ← asRule x
    pure (← ruleId rule, rule)
  pure (entries.foldl (fun d e => Dict.set d e.1 e.2) [])

/-- The current effect (smart/modules/lighteffect.py:52-61). -/
def currentEffect (states : Dict String (List (String × Json))) (info : Json) : Except Exc String := do
  if (← item info "dynamic_light_effect_enable").truthy then
    match ← item info "dynamic_light_effect_id" with
    | .str id =>
      match Dict.get? states id with
      | none => .error (.other "KeyError")
      | some rule =>
        match Dict.get? rule "scene_name" with
        | some (.str n) => .ok n
        | _ => .error (.other "KeyError")
    | _ => .error (.other "KeyError")
  else pure off

/-- `LightEffect._post_update_hook` (smart/modules/lighteffect.py:31-61): `data` answers `get_dynamic_light_effect_rules`,
`info` is `_info`. -/
def hook (data info : Json) : Except Exc Bulb := do
  let effects ← byId (← iter (← item data "rule_list"))
  let named ← effects.mapM named
  let states := List.zipWith (fun e n => (e.1, n.2)) effects named
  let pairs := List.zipWith (fun e n => (n.1, e.1)) effects named
  pure { states, effectList := off :: named.map (·.1),
         namesToId := pairs.foldl (fun d e => Dict.set d e.1 e.2) [],
         effect := ← currentEffect states info }

/-- `is_active` (smart/modules/lighteffect.py:112-115). -/
def bulbActive (info : Json) : Except Exc Bool := do
  pure (← item info "dynamic_light_effect_enable").truthy

/-- `_get_effect_data` (smart/modules/lighteffect.py:117-125). -/
def effectData (m : Bulb) (data : Json) (id : Option String) : Except Exc (List (String × Json)) := do
  let id ← match id with
    | some id => pure id
    | none =>
      match ← item data "current_rule_id" with
      | .str s => pure s
      | _ => .error (.other "KeyError")
  match Dict.get? m.states id with
  | some rule => .ok rule
  | none => .error (.other "KeyError")

/-- `x[0]` on a list. -/
def first (x : Json) : Except Exc Json :=
  match x with
  | .arr (y :: _) => .ok y
  | .arr [] => .error (.other "IndexError")
  | _ => .error (.other "TypeError")

/-- `brightness` (smart/modules/lighteffect.py:127-133). -/
def bulbBrightness (m : Bulb) (data : Json) : Except Exc Json := do
  let rule ← effectData m data none
  first (← first (← item (.obj rule) "color_status_list"))

/-- `_replace_brightness` (smart/modules/lighteffect.py:146-152). -/
def replaceBrightness (b : Json) (state : Json) : Except Exc Json :=
  match state with
  | .arr (_ :: x :: y :: z :: _) => .ok (.arr [b, x, y, z])
  | .arr _ => .error (.other "IndexError")
  | _ => .error (.other "TypeError")

/-- The edited effect (smart/modules/lighteffect.py:144-158). -/
def edited (m : Bulb) (data : Json) (b : Json) (id : Option String) : Except Exc (List (String × Json)) := do
  let rule ← effectData m data id
  let states ← iter (← item (.obj rule) "color_status_list")
  let states ← states.mapM (replaceBrightness b)
  pure (Dict.set rule "color_status_list" (.arr states))

/-- `LightEffect.set_brightness` (smart/modules/lighteffect.py:135-160). -/
def bulbSetBrightness (m : Bulb) (data : Json) (b : Json) (id : Option String) : PyM (St σ) Json := do
  let rule ← lift (edited m data b id)
  call env "edit_dynamic_light_effect_rule" (.obj rule)

/-- `Brightness.brightness` of a bulb with this module (smart/modules/brightness.py:41-50). -/
def moduleBrightness (m : Bulb) (data info : Json) : Except Exc Json := do
  if ← bulbActive info then bulbBrightness m data else item info "brightness"

/-- The brightness to use (smart/modules/lighteffect.py:103-107). -/
def bulbWanted (m : Bulb) (data info : Json) (brightness : Option Json) : Except Exc Json :=
  match brightness with
  | some b => .ok b
  | none => moduleBrightness m data info

/-- `LightEffect.set_effect` (smart/modules/lighteffect.py:77-110). -/
def bulbSetEffect (m : Bulb) (data info : Json) (effect : String) (brightness : Option Json) : PyM (St σ) Json :=
  if effect = off then call env "set_dynamic_light_effect_rule_enable" (.obj [("enable", .bool false)])
  else
    match Dict.get? m.namesToId effect with
    | none => raise (.other "ValueError")
    | some id => do
      let b ← lift (bulbWanted m data info brightness)
      let _ ← bulbSetBrightness env m data b (some id)
      call env "set_dynamic_light_effect_rule_enable" (.obj [("enable", .bool true), ("id", .str id)])

/-! ## SMART light strips -/

/-- `_effect_list` (lightstripeffect.py:19-24). -/
def stripList : List String := off :: Effects.Smart.names

/-- `name in ..` for a list of strings. -/
def isIn (x : Json) (names : List String) : Bool :=
  match x with
  | .str s => names.contains s
  | _ => false

/-- `name or LIGHT_EFFECTS_UNNAMED_CUSTOM`. -/
def orCustom (name : Json) : Json := if name.truthy then name else .str custom

/-- `LightStripEffect.effect` (lightstripeffect.py:38-48). -/
def stripEffect (info : Json) : Except Exc Json := do
  let eff ← item info "lighting_effect"
  let name ← item eff "name"
  if (← item eff "enable").truthy then
    if isIn name stripList then pure name
    else if (← item eff "custom").truthy then pure (orCustom name)
    else pure (.str off)
  else pure (.str off)

/-- `LightStripEffect.is_active` (lightstripeffect.py:50-55). -/
def stripActive (info : Json) : Except Exc Bool := do
  let eff ← item info "lighting_effect"
  if (← item eff "enable").truthy then pure (isIn (← item eff "name") stripList) else pure false

/-- `LightStripEffect.brightness` (lightstripeffect.py:57-61). -/
def stripBrightness (info : Json) : Except Exc Json := do
  item (← item info "lighting_effect") "brightness"

/-- `Brightness.brightness` of a strip (smart/modules/brightness.py:41-50). -/
def stripModuleBrightness (info : Json) : Except Exc Json := do
  if ← stripActive info then stripBrightness info else item info "brightness"

/-- The effect to switch off (lightstripeffect.py:104-114, iot/modules/lighteffect.py:58-66). -/
def offDict (mapping : Dict String (List (String × Json))) (aurora : List (String × Json)) (current : Json) :
    List (String × Json) :=
  let effect := match current with
    | .str s => (Dict.get? mapping s).getD aurora
    | _ => aurora
  Dict.set effect "enable" (.num 0)

/-- `if x is not None: d[k] = x`. -/
def setOpt (d : List (String × Json)) (k : String) (x : Option Json) : List (String × Json) :=
  match x with
  | some v => Dict.set d k v
  | none => d

/-- The brightness to use (lightstripeffect.py:122-127). -/
def stripWanted (info : Json) (brightness : Option Json) : Except Exc (Option Json) :=
  match brightness with
  | some b => .ok (some b)
  | none => do
    let b ← stripModuleBrightness info
    pure (if b.truthy then some b else none)

/-- `LightStripEffect.set_effect` (lightstripeffect.py:83-132). -/
def stripSetEffect (info : Json) (effect : String) (brightness transition : Option Json) : PyM (St σ) Json :=
  if effect = off then do
    let current ← lift (stripEffect info)
    call env "set_lighting_effect" (.obj (offDict Effects.Smart.mapping Effects.Smart.aurora current))
  else
    match Dict.get? Effects.Smart.mapping effect with
    | none => raise (.other "ValueError")
    | some d => do
      let wanted ← lift (stripWanted info brightness)
      call env "set_lighting_effect" (.obj (setOpt (setOpt d "brightness" wanted) "transition" transition))

/-- `LightStripEffect.set_brightness` (lightstripeffect.py:63-72). -/
def stripSetBrightness (info : Json) (b : Int) : PyM (St σ) Json :=
  if b ≤ 0 then stripSetEffect env info off none none
  else call env "set_lighting_effect" (.obj [("brightness", .num b), ("bAdjusted", .bool true)])

/-! ## Legacy light strips -/

/-- `LightEffect.effect` (iot/modules/lighteffect.py:13-20); `info` is `sys_info`. -/
def legacyEffect (info : Json) : Except Exc Json := do
  let eff ← item info "lighting_effect_state"
  let name ← item eff "name"
  if (← item eff "enable").truthy then pure (orCustom name) else pure (.str off)

/-- `LightEffect.effect_list` (iot/modules/lighteffect.py:27-36). -/
def legacyList : List String := off :: Effects.Legacy.names

/-- `IotModule.call` (iot/iotmodule.py:35-37) for the module of a strip (iotlightstrip.py:61-67). -/
def legacyCall (d : List (String × Json)) : PyM (St σ) Json :=
  legacyQuery env "smartlife.iot.lighting_effect" "set_lighting_effect" (.obj d) none

/-- `LightEffect.set_effect` (iot/modules/lighteffect.py:38-78). -/
def legacySetEffect (info : Json) (effect : String) (brightness transition : Option Json) : PyM (St σ) Json :=
  if effect = off then do
    let current ← lift (legacyEffect info)
    legacyCall env (offDict Effects.Legacy.mapping Effects.Legacy.aurora current)
  else
    match Dict.get? Effects.Legacy.mapping effect with
    | none => raise (.other "ValueError")
    | some d => legacyCall env (setOpt (setOpt d "brightness" brightness) "transition" transition)

end
end Kasa.LightEffects
