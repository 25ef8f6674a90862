import Verif.Model.CliChild
/-!
# Specification of the choice of a child device
-/

namespace Kasa.CliChild

/-- The devices the command was run on. -/
def ranOn : List Event → List Target
  | [] => []
  | .body t :: l => t :: ranOn l
  | _ :: l => ranOn l

/-- The children known when the command starts: commands which do not need an update get one here. -/
def known (env : Surroundings) (o : Options) : Except Exc Children :=
  if o.command = "raw-command" ∨ o.command = "command" then env.update else .ok env.children

/-- The user means a child. -/
def Asked (o : Options) : Prop := o.child ≠ none ∨ o.index ≠ none

/-- What the name means: the child with the identifier, and if there is none the first one with the alias, whatever the
case of its letters. -/
def Means (lower : String → String) (children : Children) (s : String) (c : Feature.Child) : Prop :=
  Dict.get? children s = some c ∨
  Dict.get? children s = none ∧ ∃ before id after, children = before ++ (id, c) :: after ∧
    (∃ a, c.alias = some a ∧ a ≠ "" ∧ lower a = lower s) ∧
    ∀ p ∈ before, ¬∃ a, p.2.alias = some a ∧ a ≠ "" ∧ lower a = lower s

/-- The child the options name, given the children. -/
def Chosen (env : Surroundings) (o : Options) (children : Children) (c : Feature.Child) : Prop :=
  (∃ s, o.child = some (.name s) ∧ o.index = none ∧ Means env.lower children s c) ∨
  (∃ n : Nat, o.child = none ∧ o.index = some n ∧ ∃ id, children[n]? = some (id, c)) ∨
  (o.child = some .flag ∧ o.index = none ∧
    ∃ before after, ∃ n : Nat, env.entered = before ++ some (n : Int) :: after ∧ (∃ id, children[n]? = some (id, c)) ∧
      ∀ x ∈ before, ∀ i : Int, x = some i → i < 0 ∨ children.length ≤ i)

end Kasa.CliChild
