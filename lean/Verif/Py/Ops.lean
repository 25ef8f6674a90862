import Verif.Py.Json
import Verif.Model.Exceptions
/-!
# Python operations on JSON values that raise on the wrong type
-/

namespace Kasa.Ops

/-- `x in y` for strings: is `x` a substring of `y`? -/
def isInfix : List Char → List Char → Bool
  | x, [] => x.isEmpty
  | x, c :: cs => x.isPrefixOf (c :: cs) || isInfix x cs

/-- `part in whole`. -/
def hasText (part whole : String) : Bool := isInfix part.toList whole.toList

/-- `x.get(k)`: `AttributeError` unless `x` is a dict. -/
def getOpt (x : Json) (k : String) : Except Exc (Option Json) :=
  match x with
  | .obj kvs => .ok (Dict.get? kvs k)
  | _ => .error (.other "AttributeError")

/-- `x.get(k, d)`. -/
def getOr (x : Json) (k : String) (d : Json) : Except Exc Json :=
  match x with
  | .obj kvs => .ok ((Dict.get? kvs k).getD d)
  | _ => .error (.other "AttributeError")

/-- `k in x`: a key of a dict, an element of a list, a part of a string; `TypeError` for the rest. -/
def contains (x : Json) (k : String) : Except Exc Bool :=
  match x with
  | .obj kvs => .ok (Dict.has kvs k)
  | .arr xs => .ok (decide (Json.str k ∈ xs))
  | .str s => .ok (hasText k s)
  | _ => .error (.other "TypeError")

/-- `x[k]` with a string: `KeyError` when a dict lacks it, `TypeError` for other values. -/
def item (x : Json) (k : String) : Except Exc Json :=
  match x with
  | .obj kvs =>
    match Dict.get? kvs k with
    | some v => .ok v
    | none => .error (.other "KeyError")
  | _ => .error (.other "TypeError")

/-- `len(x)`. -/
def len (x : Json) : Except Exc Nat :=
  match x with
  | .obj kvs => .ok kvs.length
  | .arr xs => .ok xs.length
  | .str s => .ok s.toList.length
  | _ => .error (.other "TypeError")

/-- `part in x.lower()`; `AttributeError` unless `x` is a string.  `lower` is Python's `str.lower`. -/
def lowerHas (lower : String → String) (part : String) (x : Json) : Except Exc Bool :=
  match x with
  | .str s => .ok (hasText part (lower s))
  | _ => .error (.other "AttributeError")

/-- A variable bound by `.get`: Python does not distinguish a missing key from `None`. -/
def orNone : Option Json → Json
  | some v => v
  | none => .null

end Kasa.Ops
