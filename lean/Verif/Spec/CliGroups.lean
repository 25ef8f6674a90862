import Verif.Model.CliGroups
import Verif.Spec.IotDevice
/-!
# Specification: the commands of the tool and what is printed
-/

namespace Kasa.CliGroupsSpec
open CliGroups

/-- A formatting tag: lower case letters in brackets, maybe after a slash. -/
def Tag (t : List Char) : Prop :=
  ∃ slash letters : List Char, (slash = [] ∨ slash = ['/']) ∧ letters ≠ [] ∧ (∀ c ∈ letters, 'a' ≤ c ∧ c ≤ 'z') ∧
    t = '[' :: slash ++ letters ++ [']']

/-- There is a tag in a text. -/
def HasTag (s : List Char) : Prop := ∃ pre t post, Tag t ∧ s = pre ++ t ++ post

/-- A text without its tags, from left to right. -/
inductive Removed : List Char → List Char → Prop where
  | nil : Removed [] []
  | tag (t rest out : List Char) : Tag t → Removed rest out → Removed (t ++ rest) out
  | keep (c : Char) (rest out : List Char) : (∀ t r, Tag t → c :: rest ≠ t ++ r) → Removed rest out → Removed (c :: rest) (c :: out)

/-- The names of a table that belong to a module. -/
def namesOf (lazy : List (String × Option String)) (parent : Option String) : List String :=
  (lazy.filter fun e => decide (e.2 = parent)).map (·.1)

/-- What the help says of a command: that it is in the group of this name also. -/
def AlsoUnder (name parent : String) : Prop := ∃ names, members parent = some names ∧ name ∈ names

/-- The request of a raw command. -/
def legacyRequest (module cmd : String) (parameters : Json) : Json := .obj [(module, .obj [(cmd, parameters)])]

/-- What the parameters of a raw command are. -/
inductive Given (evaluate : String → Except Exc Json) : Option String → Option Json → Prop where
  | none : Given evaluate none none
  | some (s : String) (v : Json) (h : evaluate s = .ok v) : Given evaluate (some s) (some v)

/-- What should be printed of a result: its JSON, and with `--json`, when the result is printed in the end, nothing here. -/
def PrintsAll (dumps : Json → List Char) (json : Bool) (res : Json) (printed : List (List Char)) : Prop := printed = if json then [] else [dumps res]

end Kasa.CliGroupsSpec
