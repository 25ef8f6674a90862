import Verif.Spec.Names
/-!
# Specification: light effects and devices that run them
-/

namespace Kasa.LightEffectsSpec
open NamesSpec

/-- The name an effect of a bulb goes by, given its id and the `scene_name` the bulb reports: the two built-in effects
have a name as long as nobody edited it; an edited name is reported in base64, or as it is. -/
def Shown (id : String) (x : Json) (name : String) : Prop :=
  (x.truthy = false ∧ (id = "L1" ∧ name = "Party" ∨ id = "L2" ∧ name = "Relax")) ∨
    (x.truthy = true ∧
      (Means x name ∨ x = .str name ∧ (∀ c ∈ name.toList, c.toNat < 128) ∧ B64.decode name.toList = none))

/-- An effect of a bulb. -/
structure Entry where
  id : String
  name : String
  rule : List (String × Json)

/-- The bulb reports these effects, in this order. -/
structure Lists (data : Json) (es : List Entry) : Prop where
  rules : data.get? "rule_list" = some (.arr (es.map fun e => .obj e.rule))
  distinct : (es.map (·.id)).Nodup
  id : ∀ e ∈ es, Dict.get? e.rule "id" = some (.str e.id)
  name : ∀ e ∈ es, ∃ x, Dict.get? e.rule "scene_name" = some x ∧ Shown e.id x e.name

/-- The bulb says that it runs the effect of that name, or none. -/
def Running (info : Json) (es : List Entry) (name : String) : Prop :=
  ∃ on, info.get? "dynamic_light_effect_enable" = some on ∧
    ((on.truthy = false ∧ name = "Off") ∨
      (on.truthy = true ∧ ∃ e ∈ es, info.get? "dynamic_light_effect_id" = some (.str e.id) ∧ e.name = name))

/-- The steps of an effect: lists of brightness, hue, saturation and colour temperature. -/
def Steps (rule : List (String × Json)) (steps : List (Json × Json × Json × Json)) : Prop :=
  Dict.get? rule "color_status_list" = some (.arr (steps.map fun s => .arr [s.1, s.2.1, s.2.2.1, s.2.2.2]))

/-- `new` is the effect `rule` with another brightness; the name may differ too. -/
def Dimmed (rule new : List (String × Json)) (b : Json) : Prop :=
  (∀ k, k ≠ "color_status_list" → k ≠ "scene_name" → Dict.get? new k = Dict.get? rule k) ∧
    ∀ steps, Steps rule steps → Steps new (steps.map fun s => (b, s.2))

/-- A bulb that does what it is told. -/
structure Lamp where
  rules : List (List (String × Json))
  on : Bool
  current : String
  brightness : Json

namespace Lamp

/-- Its answer to `get_dynamic_light_effect_rules`. -/
def data (l : Lamp) : Json :=
  .obj [("rule_list", .arr (l.rules.map .obj)), ("current_rule_id", .str l.current), ("enable", .bool l.on)]

/-- Its answer to `get_device_info`. -/
def info (l : Lamp) : Json :=
  .obj [("dynamic_light_effect_enable", .bool l.on), ("dynamic_light_effect_id", .str l.current),
    ("brightness", l.brightness)]

/-- It replaces the effect with the same id, and switches effects on and off. -/
def obey (l : Lamp) (request : Json) : Lamp :=
  match request with
  | .obj [("edit_dynamic_light_effect_rule", .obj new)] =>
    { l with rules := l.rules.map fun r => if Dict.get? r "id" = Dict.get? new "id" then new else r }
  | .obj [("set_dynamic_light_effect_rule_enable", .obj [("enable", .bool false)])] => { l with on := false }
  | .obj [("set_dynamic_light_effect_rule_enable", .obj [("enable", .bool true), ("id", .str id)])] =>
    { l with on := true, current := id }
  | _ => l

end Lamp

/-- The environment made of such a bulb. -/
def lampEnv : Names.Env Lamp where
  query request _ l := (.ok (.obj []), l.obey request)

/-- A light strip that takes over every field it is told; the other fields keep their values. -/
def stripObey (effect : List (String × Json)) (request : Json) : List (String × Json) :=
  match request with
  | .obj [("set_lighting_effect", .obj new)] => Dict.update effect new
  | .obj [("smartlife.iot.lighting_effect", .obj [("set_lighting_effect", .obj new)])] => Dict.update effect new
  | _ => effect

/-- The environment made of such a strip. -/
def stripEnv : Names.Env (List (String × Json)) where
  query request _ effect := (.ok (.obj []), stripObey effect request)

/-- The same with the answer of a legacy device. -/
def legacyStripEnv : Names.Env (List (String × Json)) where
  query request _ effect :=
    (.ok (.obj [("smartlife.iot.lighting_effect", .obj [("set_lighting_effect", .obj [("err_code", .num 0)])])]),
      stripObey effect request)

end Kasa.LightEffectsSpec
