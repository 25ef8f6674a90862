import Verif.Model.Cli
/-!
# Specification of the search for a device by its alias
-/

namespace Kasa.Cli.Spec

/-- After this history the tool waits for the update of the device at `host`: it answered the discovery, and no update of
it ended since its first answer. -/
def Asking (steps : List Step) (host : String) : Prop :=
  ∃ p q, steps = p ++ .arrives host :: q ∧ .arrives host ∉ p ∧ ∀ r, .updated host r ∉ q

/-- In this history the update of the device at `host` ended well, and showed the alias `a`. -/
def Shows (steps : List Step) (host a : String) : Prop :=
  ∃ before after, steps = before ++ .updated host (.ok (some a)) :: after ∧ Asking before host

/-- The names are the same, ignoring case. -/
def SameName (lower : String → String) (a b : String) : Prop := a ≠ "" ∧ lower a = lower b

/-- The number of rounds ended. -/
def roundsEnded : List Step → Nat
  | [] => 0
  | .roundEnds :: rest => roundsEnded rest + 1
  | _ :: rest => roundsEnded rest

end Kasa.Cli.Spec
