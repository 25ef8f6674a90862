import Verif.Py.Num
/-!
# Features (feature.py, device.py, module.py) and looking up children (device.py)
-/

namespace Kasa.Feature

/-- `Feature.Type` (feature.py:88-105). -/
inductive Kind where
  | sensor | binarySensor | switch | action | number | choice | unknown
  deriving DecidableEq

/-- `Feature.Category` (feature.py:117-131). -/
inductive Category where
  | primary | config | info | debug | unset
  deriving DecidableEq

/-- A value given to `set_value`: a number, a string (or an enumeration member that is one), or anything else. -/
inductive Value where
  | num (n : Num)
  | str (s : String)
  | other
  deriving DecidableEq

/-- What `__post_init__` and `set_value` use of a feature.  `range` is the cached property, `none` before it is first read. -/
structure Feature where
  kind : Kind
  category : Category
  settable : Bool
  range : Option (Option (Int × Int)) := none
  deriving DecidableEq

/-- `__post_init__` (feature.py:167-191). -/
def postInit (f : Feature) : Except Exc Feature :=
  let category := if f.category = .unset then (if f.settable then .config else .info) else f.category
  if f.kind = .sensor ∨ f.kind = .binarySensor then
    if category = .config then .error (.other "ValueError")
    else if f.settable then .error (.other "ValueError")
    else .ok { f with category }
  else .ok { f with category }

/-- What the getters of a feature give now (feature.py:193-200). -/
structure Getters where
  range : Except Exc (Option (Int × Int))
  choices : Except Exc (Option (List String))

/-- `range` (feature.py:212-215): read once. -/
def readRange (f : Feature) (g : Getters) : Except Exc (Option (Int × Int)) × Feature :=
  match f.range with
  | some r => (.ok r, f)
  | none =>
    match g.range with
    | .ok r => (.ok r, { f with range := some r })
    | .error e => (.error e, f)

/-- `minimum_value`, `maximum_value` (feature.py:217-229). -/
def limits : Option (Int × Int) → Int × Int
  | some r => r
  | none => (0, 65536)

/-- The check of a number (feature.py:248-255). -/
def checkNumber (x : Num) (r : Option (Int × Int)) : Except Exc Unit :=
  refuseOutside x (limits r).1 (limits r).2 (.other "ValueError")

/-- `not self.choices or value not in self.choices` (feature.py:256-261). -/
def checkChoice (v : Value) : Option (List String) → Except Exc Unit
  | none => .error (.other "ValueError")
  | some cs =>
    match v with
    | .str s => if cs.contains s then .ok () else .error (.other "ValueError")
    | _ => .error (.other "ValueError")

/-- The argument of the setter: none for actions (feature.py:263-272). -/
def argument (f : Feature) (v : Value) : Option Value := if f.kind = .action then none else some v

/-- `set_value` (feature.py:244-272): the argument the setter is called with, or the exception, and the feature after it. -/
def setValue (f : Feature) (g : Getters) (v : Value) : Except Exc (Option Value) × Feature :=
  if !f.settable then (.error (.other "ValueError"), f)
  else if f.kind = .number then
    match v with
    | .num x =>
      if !x.isNumber then (.error (.other "ValueError"), f)
      else
        match readRange f g with
        | (.error e, f') => (.error e, f')
        | (.ok r, f') =>
          match checkNumber x r with
          | .error e => (.error e, f')
          | .ok () => (.ok (argument f v), f')
    | _ => (.error (.other "ValueError"), f)
  else if f.kind = .choice then
    match g.choices with
    | .error e => (.error e, f)
    | .ok cs =>
      match checkChoice v cs with
      | .error e => (.error e, f)
      | .ok () => (.ok (argument f v), f)
  else (.ok (argument f v), f)

/-! ## Registering features -/

/-- A registered feature: its id, and the names of its getter and setter if they are names. -/
structure Entry where
  id : String
  getter : Option String
  setter : Option String
  deriving DecidableEq

/-- `Device._add_feature` (device.py:453-458) and `Module._add_feature` (module.py:235-240). -/
def addFeature (e : Entry) : PyM (List (String × Entry)) Unit := fun fs =>
  if Dict.has fs e.id then (.error .kasa, fs) else (.ok (), Dict.set fs e.id e)

/-! ## Features of attributes -/

/-- What the class of a module says of an attribute: not there; without a feature; with one, perhaps named
(module.py:249-262, 282-293). -/
inductive Attr where
  | missing
  | unbound
  | bound (name : Option String)

/-- A module: its class, its features, and the cache of `_get_bound_feature` (module.py:265). -/
structure Module where
  attrs : String → Attr
  features : List (String × Entry)
  cache : List (String × Option Entry)

/-- The search through the features (module.py:300-308).  Getters and setters that are functions match no name. -/
def search (fs : List (String × Entry)) (attr : String) : Option Entry :=
  match fs with
  | [] => none
  | (_, e) :: rest => if e.getter = some attr ∨ e.setter = some attr then some e else search rest attr

/-- `_get_bound_feature` without its cache (module.py:266-308). -/
def boundFeature (m : Module) (attr : String) : Except Exc (Option Entry) :=
  match m.attrs attr with
  | .missing => .error .kasa
  | .unbound => .error .kasa
  | .bound (some name) => if name = "" then .ok (search m.features attr) else .ok (Dict.get? m.features name)
  | .bound none => .ok (search m.features attr)

/-- `get_feature` (module.py:200-202) behind `@cache`: exceptions are not cached. -/
def getFeature (attr : String) : PyM Module (Option Entry) := fun m =>
  match Dict.get? m.cache attr with
  | some r => (.ok r, m)
  | none =>
    match boundFeature m attr with
    | .error e => (.error e, m)
    | .ok r => (.ok r, { m with cache := Dict.set m.cache attr r })

/-- `has_feature` (module.py:196-198). -/
def hasFeature (attr : String) : PyM Module Bool := fun m =>
  match getFeature attr m with
  | (.ok r, m') => (.ok r.isSome, m')
  | (.error e, m') => (.error e, m')

/-- Registering a feature in the module. -/
def moduleAdd (e : Entry) : PyM Module Unit := fun m =>
  match addFeature e m.features with
  | (r, fs) => (r, { m with features := fs })

/-! ## Looking up children -/

/-- A child: its alias, if any, and something to tell it apart. -/
structure Child where
  alias : Option String
  tag : Nat
  deriving DecidableEq

/-- `child.alias and child.alias.lower() == name_lower` (device.py:378). -/
def aliasMatches (lower : String → String) (name : String) (c : Child) : Bool :=
  match c.alias with
  | some a => decide (a ≠ "" ∧ lower a = lower name)
  | none => false

/-- `get_child_device` (device.py:372-380); `lower` is `str.lower`. -/
def getChild (lower : String → String) (children : List (String × Child)) (name : String) : Option Child :=
  match Dict.get? children name with
  | some c => some c
  | none => (children.map (·.2)).find? (aliasMatches lower name)

/-- `get_plug_by_name` (device.py:387-393). -/
def getPlugByName (children : List (String × Child)) (name : String) : Except Exc Child :=
  match (children.map (·.2)).find? (fun c => decide (c.alias = some name)) with
  | some c => .ok c
  | none => .error .kasa

/-- `get_plug_by_index` (device.py:395-401). -/
def getPlugByIndex (children : List (String × Child)) (index : Int) : Except Exc Child :=
  if index + 1 > children.length ∨ index < 0 then .error .kasa
  else
    match (children.map (·.2))[index.toNat]? with
    | some c => .ok c
    | none => .error (.other "IndexError")

end Kasa.Feature
