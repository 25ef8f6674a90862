import Verif.Model.Listing
/-!
# Specification: what a listing of features shows
-/

namespace Kasa.ListingSpec
open Listing Feature

/-- What cannot be caught: the interruption of the program. -/
def Interrupted : Except Exc α → Prop
  | .error e => e.isException = false
  | .ok _ => False

/-- No getter of the feature is interrupted. -/
def Calm (f : Item) : Prop :=
  (∀ x, f.getter = some x → ¬ Interrupted x) ∧ ¬ Interrupted f.choices ∧ ¬ Interrupted f.unit ∧ ¬ Interrupted f.limits

/-- The text of a value: a number is rounded if and only if the feature says to how many digits. -/
inductive TextOf (f : Item) : Val → String → Prop
  | plain (t : String) : TextOf f (.plain t) t
  | rounded (t r : String) (h : f.precise = true) : TextOf f (.float t r) r
  | whole (t r : String) (h : f.precise = false) : TextOf f (.float t r) t
  | enum (n r : String) (e : Option String) : TextOf f (.enum n r e) r

/-- The lines of one feature, given the first one. -/
def block (verbose : Bool) (indent first : String) (f : Item) : List String :=
  (indent ++ first) :: if verbose then
    [indent ++ "\tType: " ++ kindText f.kind, indent ++ "\tCategory: " ++ categoryText f.category, indent ++ "\tIcon: " ++ f.icon] else []

/-- A feature is shown by these lines: it has a text; or making the text failed, and the line says so. -/
inductive ShownAs (text : Exc → String) (verbose : Bool) (indent : String) (f : Item) : List String → Prop
  | text (s : String) (h : repr text f = .ok s) : ShownAs text verbose indent f (block verbose indent s f)
  | failed (e : Exc) (h : repr text f = .error e) :
      ShownAs text verbose indent f [indent ++ f.name ++ " (" ++ f.id ++ "): [red]got exception (" ++ text e ++ ")[/red]"]

/-- The features are shown one after the other. -/
inductive ShownAll (text : Exc → String) (verbose : Bool) (indent : String) : List Item → List String → Prop
  | nil : ShownAll text verbose indent [] []
  | cons {f : Item} {fs : List Item} {lines rest : List String} (h : ShownAs text verbose indent f lines)
      (hs : ShownAll text verbose indent fs rest) : ShownAll text verbose indent (f :: fs) (lines ++ rest)

/-- The lines of a listing: each feature is in one of the sections, which one depends on its category; the sections keep the order. -/
def Listed (text : Exc → String) (verbose : Bool) (indent : String) (features : List Item) (lines : List String) : Prop :=
  ∃ a b c d : List Item, ∃ la lb lc ld : List String,
    (a ++ b ++ c ++ d).Perm features ∧ a.Sublist features ∧ b.Sublist features ∧ c.Sublist features ∧ d.Sublist features ∧
    (∀ f ∈ a, f.category = .primary) ∧ (∀ f ∈ b, f.category = .info) ∧ (∀ f ∈ c, f.category = .config) ∧ (∀ f ∈ d, f.category = .debug) ∧
    ShownAll text verbose indent a la ∧ ShownAll text verbose indent b lb ∧ ShownAll text verbose indent c lc ∧
    ShownAll text verbose indent d ld ∧
    lines = (indent ++ "[bold]== Primary features ==[/bold]") :: la ++ "" :: (indent ++ "[bold]== Information ==[/bold]") :: lb ++
      "" :: (indent ++ "[bold]== Configuration ==[/bold]") :: lc ++ "" :: (indent ++ "[bold]== Debug ==[/bold]") :: ld

/-- The children are listed one after the other: each with a heading made of its alias and model, an empty line, its features, and something
more about it. -/
inductive Children (text : Exc → String) (verbose : Bool) (heading : String → Except Exc String → String) (more : String × Sub → List String) :
    List Sub → List String → Prop
  | nil : Children text verbose heading more [] []
  | cons {c : Sub} {cs : List Sub} {alias : String} {lines rest : List String} (ha : c.alias = .ok alias)
      (hl : Listed text verbose "\t" c.features lines) (hs : Children text verbose heading more cs rest) :
      Children text verbose heading more (c :: cs) (heading alias c.model :: "" :: lines ++ more (alias, c) ++ rest)

end Kasa.ListingSpec
