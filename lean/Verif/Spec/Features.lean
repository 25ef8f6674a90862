import Verif.Model.Features
/-!
# Specification: the features of a device
-/

namespace Kasa.Features

/-- The feature belongs to the device or to one of its modules, and what it depends on is there. -/
def Offered (own : List Step) (mods : List Class) (f : Facts) (r : Row) : Prop :=
  r.cond f = true ∧ (.row r ∈ own ∨ ∃ c ∈ mods, .row r ∈ c.steps)

/-- Some of the modules of a device: known ones, and each name once. -/
def Modules (known mods : List Class) : Prop := (∀ c ∈ mods, c ∈ known) ∧ (mods.map Class.name).Nodup

def Has (mods : List Class) (name : String) : Prop := name ∈ mods.map Class.name

/-- The combinations that give two features the same id. -/
def Clash (mods : List Class) (f : Facts) : Prop :=
  Has mods "ChildLock" ∧ Has mods "ChildProtection" ∨
  Has mods "TemperatureControl" ∧ f.has "device_on" = true ∨
  Has mods "Clean" ∧ Has mods "BatterySensor" ∧ f.has "battery_percentage" = true

/-- The data a module reads while its features are initialised is there. -/
def Readable (mods : List Class) (f : Facts) : Prop := ∀ c ∈ mods, .read ∈ c.steps → f.data c.name = none

/-- A device whose features have not been initialised. -/
def fresh : St := ⟨[], []⟩

/-- Updates one after the other: the outcomes, and what the device has in the end. -/
def updates (own : List Step) (mods : List Class) : List Facts → St → List (Except Exc Unit) × St
  | [], s => ([], s)
  | f :: fs, s =>
    let (o, s') := ensure own mods f s
    let (os, s'') := updates own mods fs s'
    (o :: os, s'')

/-- The feature can be used as its kind says: all but actions have a value; what can be set has a setter, a sensor has none; a choice says what
can be chosen, and only a number has a range. -/
def Usable (r : Row) : Prop :=
  (r.kind ≠ .action → r.getter = true) ∧
  (r.kind = .action ∨ r.kind = .switch ∨ r.kind = .number ∨ r.kind = .choice → r.setter = true) ∧
  (r.kind = .sensor ∨ r.kind = .binarySensor → r.setter = false ∧ r.category ≠ .config) ∧
  (r.kind = .choice ↔ r.choices = true) ∧ (r.range = true → r.kind = .number)

/-- The feature as it is constructed. -/
def feature (r : Row) : Feature.Feature := { kind := r.kind, category := r.category, settable := r.setter }

end Kasa.Features
