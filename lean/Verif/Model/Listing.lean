import Verif.Py.Monad
import Verif.Model.Feature
/-!
# Listing features (feature.py `value`, `__repr__`; cli/feature.py; cli/device.py `state`)

The lines are the strings passed to `echo`, before the markup of rich is interpreted; with `--json` nothing is written (C84).  Messages logged
by `__repr__` are left out.  The text of a value is what formatting it gives.
-/

namespace Kasa.Listing
open PyM Feature

/-- A value of a feature. -/
inductive Val where
  /-- `text` is its text. -/
  | plain (text : String)
  /-- A float: its text, and its text once rounded to the digits of `precision_hint`. -/
  | float (text rounded : String)
  /-- A member of an enumeration: its name, its `repr`, and the string it is equal to, if any. -/
  | enum (name repr : String) (equals : Option String)
  deriving DecidableEq

/-- A feature with what its getters give now.  `getter` is `none` without `attribute_getter`; `choices` is `none` if the getter gives anything
but a list; a unit that is an enumeration member is given by its `repr`; `limits` are `minimum_value` and `maximum_value`. -/
structure Item where
  id : String
  name : String
  kind : Kind
  category : Category
  icon : String
  precise : Bool
  getter : Option (Except Exc Val)
  choices : Except Exc (Option (List String))
  unit : Except Exc (Option String)
  limits : Except Exc (Int × Int)

/-- `value` (feature.py:231-241). -/
def value (f : Item) : Except Exc Val :=
  if f.kind = .action then .ok (.plain "<Action>")
  else
    match f.getter with
    | none => .error (.other "ValueError")
    | some x => x

/-- `value in choices` (feature.py:291). -/
def among (v : Val) (choices : List String) : Bool :=
  match v with
  | .plain t => choices.contains t
  | .float _ _ => false
  | .enum _ _ (some e) => choices.contains e
  | .enum _ _ none => false

/-- `choice == value or (isinstance(value, Enum) and choice == value.name)` (feature.py:307-308). -/
def chosen (v : Val) (choice : String) : Bool :=
  match v with
  | .plain t => decide (choice = t)
  | .float _ _ => false
  | .enum n _ e => decide (some choice = e) || decide (choice = n)

/-- `isinstance(value, Enum) and value.name not in choices` (feature.py:292). -/
def nameless (v : Val) (choices : List String) : Bool :=
  match v with
  | .enum n _ _ => !choices.contains n
  | _ => false

/-- The text of a value that is not a choice (feature.py:313-317). -/
def valueText (precise : Bool) : Val → String
  | .plain t => t
  | .float t r => if precise then r else t
  | .enum _ r _ => r

/-- The text of a value as `f"{value}"`, in the message for an invalid one (feature.py:302).  The text of a member of an enumeration is taken to
be its `repr`. -/
def anyText : Val → String
  | .plain t => t
  | .float t _ => t
  | .enum _ r _ => r

/-- The name and the id (feature.py:290, 302, 318). -/
def label (f : Item) : String := f.name ++ " (" ++ f.id ++ ")"

/-- The end of `__repr__` (feature.py:318-327). -/
def withUnit (f : Item) (text : String) : Except Exc String := do
  let unit ← f.unit
  let s := match unit with
    | some u => label f ++ ": " ++ text ++ " " ++ u
    | none => label f ++ ": " ++ text
  if f.kind = .number then do
    let r ← f.limits
    pure (s ++ " (range: " ++ toString r.1 ++ "-" ++ toString r.2 ++ ")")
  else pure s

/-- The text of a list of strings (`repr` of a list, without escapes; feature.py:302). -/
def listText (choices : List String) : String := "[" ++ String.intercalate ", " (choices.map fun c => "'" ++ c ++ "'") ++ "]"

/-- `__repr__` (feature.py:274-327); `text` gives the text of an exception. -/
def repr (text : Exc → String) (f : Item) : Except Exc String :=
  match (do let v ← value f; let c ← f.choices; pure (v, c) : Except Exc (Val × Option (List String))) with
  | .error e => if e.isException then .ok ("Unable to read value (" ++ f.id ++ "): " ++ text e) else .error e
  | .ok (v, c) =>
    if f.kind = .choice then
      match c with
      | none => .ok (label f ++ ": improperly defined choice set.")
      | some cs =>
        if !among v cs && nameless v cs then .ok (label f ++ ": invalid value '" ++ anyText v ++ "' not in " ++ listText cs)
        else withUnit f (String.intercalate " " (cs.map fun c => if chosen v c then "*" ++ c ++ "*" else c))
    else withUnit f (valueText f.precise v)

abbrev Lines := List String

/-- `echo` (common.py:53-57). -/
def echo (s : String) : PyM Lines Unit := fun l => (.ok (), l ++ [s])

/-- The names of the types (feature.py:88-105). -/
def kindText : Kind → String
  | .sensor => "Type.Sensor" | .binarySensor => "Type.BinarySensor" | .switch => "Type.Switch" | .action => "Type.Action"
  | .number => "Type.Number" | .choice => "Type.Choice" | .unknown => "Type.Unknown"

/-- The names of the categories (feature.py:110-131). -/
def categoryText : Category → String
  | .primary => "Category.Primary" | .config => "Category.Config" | .info => "Category.Info" | .debug => "Category.Debug"
  | .unset => "Category.Unset"

/-- One turn of the loop of `_echo_features` (cli/feature.py:32-40). -/
def echoFeature (text : Exc → String) (verbose : Bool) (indent : String) (f : Item) : PyM Lines Unit :=
  tryExcept
    (do
      let s ← lift (repr text f)
      echo (indent ++ s)
      if verbose then do
        echo (indent ++ "\tType: " ++ kindText f.kind)
        echo (indent ++ "\tCategory: " ++ categoryText f.category)
        echo (indent ++ "\tIcon: " ++ f.icon)
      else pure ())
    fun e => if e.isException then echo (indent ++ label f ++ ": [red]got exception (" ++ text e ++ ")[/red]") else raise e

/-- A loop. -/
def each {α : Type} (body : α → PyM Lines Unit) : List α → PyM Lines Unit
  | [] => pure ()
  | x :: xs => do
    body x
    each body xs

/-- `_echo_features` (cli/feature.py:18-40). -/
def echoFeatures (text : Exc → String) (verbose : Bool) (indent title : String) (category : Category) (features : List Item) : PyM Lines Unit := do
  echo (indent ++ "[bold]" ++ title ++ "[/bold]")
  each (echoFeature text verbose indent) (features.filter fun f => decide (f.category = category))

/-- `_echo_all_features` (cli/feature.py:43-82). -/
def echoAll (text : Exc → String) (verbose : Bool) (prefix_ : Option String) (indent : String) (features : List Item) : PyM Lines Unit := do
  match prefix_ with
  | some p => do
    echo ("[bold]\n" ++ indent ++ "== " ++ p ++ " ==[/bold]")
    echo ""
  | none => pure ()
  echoFeatures text verbose indent "== Primary features ==" .primary features
  echo ""
  echoFeatures text verbose indent "== Information ==" .info features
  echo ""
  echoFeatures text verbose indent "== Configuration ==" .config features
  echo ""
  echoFeatures text verbose indent "== Debug ==" .debug features

/-- A child of the device. -/
structure Sub where
  alias : Except Exc String
  model : Except Exc String
  features : List Item
  modules : List String

/-- The `feature` command without a name (cli/feature.py:102-114). -/
def listFeatures (text : Exc → String) (verbose : Bool) (features : List Item) (children : List Sub) : PyM Lines Unit := do
  echoAll text verbose none "" features
  each (fun c => do
    let alias ← lift c.alias
    echoAll text verbose (some ("Child " ++ alias)) "\t" c.features) children

/-- What the `state` command reads: the lines about the device, each the outcome of reading its attributes, the location line for `--verbose`, the
features, modules and children, and the lines about the protocol and the discovery (C80 does not describe them either). -/
structure Facts where
  heading : List (Except Exc String)
  location : Except Exc String
  features : List Item
  modules : List String
  children : List Sub
  protocol : List (Except Exc String)

/-- The `state` command (cli/device.py:33-90). -/
def state (text : Exc → String) (verbose : Bool) (x : Facts) : PyM Lines Unit := do
  each (fun l => do let s ← lift l; echo s) x.heading
  (if verbose then do let s ← lift x.location; echo s else pure ())
  echo ""
  echoAll text verbose none "" x.features
  (if verbose then do
    echo "\n[bold]== Modules ==[/bold]"
    each (fun m => echo ("[green]+ " ++ m ++ "[/green]")) x.modules
  else pure ())
  (if x.children.isEmpty then pure ()
  else do
    echo "\n[bold]== Children ==[/bold]"
    each (fun c => do
      let alias ← lift c.alias
      let model ← lift c.model
      echoAll text verbose (some (alias ++ " (" ++ model ++ ")")) "\t" c.features
      if verbose then do
        echo ("\n\t[bold]== Child " ++ alias ++ " Modules ==[/bold]")
        each (fun m => echo ("\t[green]+ " ++ m ++ "[/green]")) c.modules
      else pure ()) x.children
    echo "")
  if verbose then each (fun l => do let s ← lift l; echo s) x.protocol else pure ()

end Kasa.Listing
