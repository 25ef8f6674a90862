import Verif.Model.Cli
import Verif.Model.Feature
/-!
# The command line tool: the choice of a child device (cli/common.py:117-227)

`pass_dev_or_child` wraps most commands: with `--child` or `--child-index` the command gets a child of the device.

Not modelled: the parsing of the arguments and the texts.
-/

namespace Kasa.CliChild

open Cli (Stop)
open Feature (Child)

/-- The children of a device by their identifiers, in order (`Device._children`). -/
abbrev Children : Type := List (String × Child)

/-- The value of `--child`: with or without a name (common.py:20-21, 139-148). -/
inductive Named where
  | flag
  | name (s : String)
  deriving DecidableEq

/-- The command: its name, and the options `--child` and `--child-index` (common.py:139-156). -/
structure Options where
  command : String
  child : Option Named := none
  index : Option Int := none

/-- Which device. -/
inductive Target where
  | parent
  | child (c : Child)
  deriving DecidableEq

/-- What a command does: texts, an update of the parent, an answer to the prompt, and the command itself on a device. -/
inductive Event where
  | text
  | update
  | answer
  | body (t : Target)
  deriving DecidableEq

/-- What the device and the user answer: the children before and after an update, and what is entered at the prompt
(`none` is not a number); the input ends after the last one. -/
structure Surroundings where
  lower : String → String
  children : Children
  update : Except Exc Children
  entered : List (Option Int)

/-- `error` (common.py:60-63). -/
def error {α : Type} : Except Stop α × List Event := (.error (.exit 1), [.text])

/-- `click.prompt` with `IntRange(0, n - 1)`: asks again until a number of the range is entered, and the end of the input
is `click.Abort`. -/
def prompt (n : Nat) : List (Option Int) → Except Stop Int × List Event
  | [] => (.error .abort, [])
  | some i :: rest =>
    if 0 ≤ i ∧ i ≤ (n : Int) - 1 then (.ok i, [.answer])
    else match prompt n rest with | (r, l) => (r, .answer :: l)
  | none :: rest => match prompt n rest with | (r, l) => (r, .answer :: l)

/-- The choice by index (common.py:217-227). -/
def byIndex (children : Children) (i : Int) : Except Stop Child × List Event :=
  if i + 1 > (children.length : Int) ∨ i < 0 then error
  else match children[i.toNat]? with
    | some c => (.ok c.2, [.text])
    | none => (.error (.failed (.other "IndexError")), [])

/-- The choice among the children there are (common.py:192-227). -/
def among (env : Surroundings) (o : Options) (children : Children) : Except Stop Child × List Event :=
  if children = [] then error
  else match o.child, o.index with
    | some _, some _ => (.error .usage, [])
    | some .flag, none =>
      match prompt children.length env.entered with
      | (.error e, l) => (.error e, l)
      | (.ok i, l) => match byIndex children i with | (r, l') => (r, l ++ l')
    | some (.name s), none =>
      match Feature.getChild env.lower children s with
      | some c => (.ok c, [.text])
      | none => error
    | none, some i => byIndex children i
    | none, none => (.error (.failed (.other "TypeError")), [])

/-- `_get_child_device` (common.py:167-227). -/
def getChildDevice (env : Surroundings) (o : Options) : Except Stop (Option Child) × List Event :=
  if o.child = none ∧ o.index = none then (.ok none, [])
  else if o.command ∈ ["raw-command", "command"] then
    match env.update with
    | .error e => (.error (.failed e), [.update])
    | .ok children =>
      match among env o children with
      | (.ok c, l) => (.ok (some c), .update :: l)
      | (.error e, l) => (.error e, .update :: l)
  else
    match among env o env.children with
    | (.ok c, l) => (.ok (some c), l)
    | (.error e, l) => (.error e, l)

/-- Whose data the `update` method of each child (by its tag) fetches; `.parent` stands for the method of the parent. -/
abbrev Methods : Type := Nat → Target

/-- The wrapped command, `patched_device_update` around it (common.py:126-135, 157-161).  The body is any computation on
the methods (and may change those of other children); the method of the child is put back when the context is left,
whether the body raised or not. -/
def wrapper (env : Surroundings) (o : Options) (body : Target → Methods → Except Stop Unit × Methods) (m : Methods) :
    Except Stop Unit × List Event × Methods :=
  match getChildDevice env o with
  | (.error e, l) => (.error e, l, m)
  | (.ok none, l) =>
    match body .parent m with
    | (r, m') => (r, l ++ [.body .parent], m')
  | (.ok (some c), l) =>
    match body (.child c) (fun t => if t = c.tag then .parent else m t) with
    | (r, m') => (r, l ++ [.body (.child c)], fun t => if t = c.tag then m c.tag else m' t)

end Kasa.CliChild
