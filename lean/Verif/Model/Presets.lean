import Verif.Model.Lights
/-!
# Light presets (iot/modules/lightpreset.py, smart/modules/lightpreset.py)
-/

namespace Kasa.Presets

open Lights (State)

/-- A slot of the stored list: an effect, or a preset.  Legacy devices mark effects by an `id`; newer ones by the lack of a
`brightness`.  Presets have no `light_on` and no transition. -/
inductive Slot where
  | effect
  | preset (s : State)

def Slot.isPreset : Slot → Bool
  | .effect => false
  | .preset _ => true

/-- `f"Light preset {index + 1}"`. -/
def name (i : Nat) : String := "Light preset " ++ toString (i + 1)

/-- `f"Brightness preset {index + 1}"`. -/
def brightnessName (i : Nat) : String := "Brightness preset " ++ toString (i + 1)

/-- Legacy `_post_update_hook` (iot/modules/lightpreset.py:54-62): the index counts all slots.  The names are distinct, so the
dict is this list. -/
def readFrom (i : Nat) : List Slot → List (String × State)
  | [] => []
  | .effect :: rest => readFrom (i + 1) rest
  | .preset s :: rest => (name i, s) :: readFrom (i + 1) rest

def read (slots : List Slot) : List (String × State) := readFrom 0 slots

/-- `asdict` of a state without its `None`s (iot/modules/lightpreset.py:138-139, smart/modules/lightpreset.py:148-149). -/
def fields (s : State) : List (String × PyV) :=
  Lights.stateDict s ++ match s.transition with | some t => [("transition", .num t)] | none => []

/-- `list.index`. -/
def position (x : String) : List String → Option Nat
  | [] => none
  | y :: ys => if y = x then some 0 else (position x ys).map (· + 1)

/-- Legacy `save_preset` (iot/modules/lightpreset.py:126-142). -/
def save (service : String) (presets : List (String × State)) (n : String) (s : State) : Except Exc Command :=
  if presets.isEmpty then .error .kasa
  else
    match position n (Dict.keys presets) with
    | none => .error (.other "ValueError")
    | some index => .ok ⟨service, "set_preferred_state", Dict.set (fields s) "index" (.num (.int index))⟩

/-- `set_preset` (iot/modules/lightpreset.py:105-119, smart/modules/lightpreset.py:118-131): the state given to the light. -/
def choose (hasColor : Bool) (presets : List (String × State)) (n : String) : Except Exc State :=
  if n = "Not set" then
    .ok (if hasColor then { hue := some (.int 0), saturation := some (.int 0), brightness := some (.int 100) }
      else { brightness := some (.int 100) })
  else
    match Dict.get? presets n with
    | some s => .ok s
    | none => .error (.other "ValueError")

/-- The colours that make a newer light more than dimmable (smart/modules/lightpreset.py:62-63). -/
def onlyBrightness (s : State) : Bool := s.colorTemp.isNone && s.hue.isNone && s.saturation.isNone

/-- The loop over `states` (smart/modules/lightpreset.py:44-64): the index counts presets only. -/
def smartFrom (i : Nat) : List Slot → List (String × State)
  | [] => []
  | .effect :: rest => smartFrom i rest
  | .preset s :: rest => (name i, s) :: smartFrom (i + 1) rest

def anyOnlyBrightness : List Slot → Bool
  | [] => false
  | .effect :: rest => anyOnlyBrightness rest
  | .preset s :: rest => onlyBrightness s || anyOnlyBrightness rest

/-- The loop over `brightness` (smart/modules/lightpreset.py:67-71). -/
def brightnessFrom (i : Nat) : List Num → List (String × State)
  | [] => []
  | b :: rest => (brightnessName i, { brightness := some b }) :: brightnessFrom (i + 1) rest

/-- The module: its presets and `_brightness_only`, which is never reset (smart/modules/lightpreset.py:35). -/
structure Module where
  presets : List (String × State)
  brightnessOnly : Bool

/-- `_post_update_hook` (smart/modules/lightpreset.py:37-74). -/
def smartUpdate (m : Module) (states : List Slot) (brightness : List Num) : Module :=
  if !states.isEmpty then ⟨smartFrom 0 states, m.brightnessOnly || anyOnlyBrightness states⟩
  else if !brightness.isEmpty then ⟨brightnessFrom 0 brightness, true⟩
  else ⟨[], m.brightnessOnly⟩

/-- A brightness in the list that is sent; `None` becomes null, here a string as there is no other use for it. -/
def brightnessValue (s : State) : PyV := match s.brightness with | some b => .num b | none => .str "null"

/-- `save_preset` (smart/modules/lightpreset.py:133-152). -/
def smartSave (m : Module) (n : String) (s : State) : Except Exc Command :=
  match position n (Dict.keys m.presets) with
  | none => .error (.other "ValueError")
  | some index =>
    if m.brightnessOnly then
      .ok ⟨"", "set_preset_rules", [("brightness", .arr ((m.presets.map (fun p => brightnessValue p.2)).set index (brightnessValue s)))]⟩
    else .ok ⟨"", "edit_preset_rules", [("index", .num (.int index)), ("state", .obj (fields s))]⟩

/-- `==` of two optional numbers. -/
def same : Option Num → Option Num → Bool
  | none, none => true
  | some a, some b => match b.value with | some v => a.eq v | none => false
  | _, _ => false

/-- What the light shows: colour temperature and colour only if it has them. -/
structure Shown where
  brightness : Num
  colorTemp : Option Num
  color : Option (Num × Num)

/-- The comparison in the legacy `preset` (iot/modules/lightpreset.py:96-101). -/
def matchesLegacy (l : Shown) (p : State) : Bool :=
  same p.brightness (some l.brightness) && (same p.colorTemp l.colorTemp || l.colorTemp.isNone) &&
    (same p.hue (l.color.map (·.1)) || l.color.isNone) && (same p.saturation (l.color.map (·.2)) || l.color.isNone)

/-- The comparison in `preset` (smart/modules/lightpreset.py:106-114). -/
def matchesSmart (l : Shown) (p : State) : Bool :=
  same p.brightness (some l.brightness) && (same p.colorTemp l.colorTemp || l.colorTemp.isNone) &&
    same p.hue (l.color.map (·.1)) && same p.saturation (l.color.map (·.2))

/-- `preset` (iot/modules/lightpreset.py:84-103, smart/modules/lightpreset.py:94-116). -/
def current (test : State → Bool) : List (String × State) → String
  | [] => "Not set"
  | (n, p) :: rest => if test p then n else current test rest

end Kasa.Presets
