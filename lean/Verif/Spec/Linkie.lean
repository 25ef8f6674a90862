import Verif.Spec.Xor
import Verif.Py.Text
/-!
# What a camera does with the body of a request: it is an HTML form
-/

namespace Kasa.LinkieSpec

/-- Split a text at every separator. -/
def splitAll (sep : Char) : List Char → List (List Char)
  | [] => [[]]
  | c :: cs =>
    if c = sep then [] :: splitAll sep cs
    else
      match splitAll sep cs with
      | part :: parts => (c :: part) :: parts
      | [] => [[c]]

/-- The name and the value of a field: what is before and after the first `=`. -/
def nameValue (part : List Char) : List Char × List Char :=
  (part.takeWhile (· ≠ '='), (part.dropWhile (· ≠ '=')).drop 1)

/-- The value of a hexadecimal digit. -/
def hexValue (c : Char) : Option Nat :=
  if '0' ≤ c ∧ c ≤ '9' then some (c.toNat - 48)
  else if 'A' ≤ c ∧ c ≤ 'F' then some (c.toNat - 55)
  else if 'a' ≤ c ∧ c ≤ 'f' then some (c.toNat - 87)
  else none

/-- The text of a form's value: `+` is a blank, `%41` is the character with that number. -/
def formText : List Char → Option (List Char)
  | [] => some []
  | '+' :: cs => (formText cs).map (' ' :: ·)
  | '%' :: a :: b :: cs =>
    match hexValue a, hexValue b with
    | some x, some y => (formText cs).map (Char.ofNat (16 * x + y) :: ·)
    | _, _ => none
  | c :: cs => if c = '%' then none else (formText cs).map (c :: ·)

/-- The fields of a form. -/
def fields (body : Bytes) : List (List Char × Option (List Char)) :=
  (splitAll '&' (body.map fun x => Char.ofNat x.toNat)).map fun part =>
    ((nameValue part).1, formText (nameValue part).2)

/-- The body carries a request: it is a form with the single field `content`, the base64 of the request's cipher
bytes. -/
def Carries (body : Bytes) (request : String) : Prop :=
  ∃ text, fields body = [("content".toList, some text)] ∧
    B64.decode text = some (XorSpec.cipherBytes (utf8 request))

/-- The answer carries a text: it is base64 of its cipher bytes. -/
def Answers (answer : Bytes) (text : String) : Prop :=
  B64.decode (answer.map fun x => Char.ofNat x.toNat) = some (XorSpec.cipherBytes (utf8 text))

end Kasa.LinkieSpec
