import Verif.Py.Json
/-!
# What legacy requests and answers mean
-/

namespace Kasa.IotSpec

/-- No dict inside the value has a key twice (true of every Python value). -/
inductive Proper : Json → Prop where
  | null : Proper .null
  | bool (b : Bool) : Proper (.bool b)
  | num (n : Int) : Proper (.num n)
  | str (s : String) : Proper (.str s)
  | arr (xs : List Json) (h : ∀ x ∈ xs, Proper x) : Proper (.arr xs)
  | obj (kvs : List (String × Json)) (hw : Dict.WF kvs) (h : ∀ kv ∈ kvs, Proper kv.2) : Proper (.obj kvs)

/-- The query `q` is part of the request `r`: a dict is part of a dict that has all its keys, with values of which its values
are part; anything else is only part of itself. -/
inductive PartOf : Json → Json → Prop where
  | same (v : Json) : PartOf v v
  | dict (q r : List (String × Json))
      (has : ∀ k v, Dict.get? q k = some v → Dict.get? r k ≠ none)
      (h : ∀ k v w, Dict.get? q k = some v → Dict.get? r k = some w → PartOf v w) : PartOf (.obj q) (.obj r)

/-- Two queries do not contradict each other: under a key they share, both have dicts that do not contradict each other, or
the same value. -/
inductive Agree : Json → Json → Prop where
  | same (v : Json) : Agree v v
  | dict (a b : List (String × Json))
      (h : ∀ k v w, Dict.get? a k = some v → Dict.get? b k = some w → Agree v w) : Agree (.obj a) (.obj b)

/-- Following keys down. -/
def follow : Json → List String → Option Json
  | j, [] => some j
  | .obj kvs, k :: path =>
    match Dict.get? kvs k with
    | some j => follow j path
    | none => none
  | _, _ :: _ => none

/-- The sum of the sizes. -/
def total {α : Type} (size : α → Nat) (items : List α) : Nat := (items.map size).sum

/-- `items` are split into consecutive groups: a first one, which goes along with something of size `base`, and the rest. -/
structure Split {α : Type} (size : α → Nat) (budget base : Nat) (items first : List α) (rest : List (List α)) : Prop where
  /-- Nothing is lost, repeated or reordered. -/
  all : first ++ rest.flatten = items
  /-- Whatever goes along with the first part fits. -/
  fitsFirst : first ≠ [] → base + total size first ≤ budget
  /-- A group of several fits. -/
  fits : ∀ g ∈ rest, g.length = 1 ∨ total size g ≤ budget
  nonempty : ∀ g ∈ rest, g ≠ []

/-- The value known under a target and a command. -/
def known (state : List (String × Json)) (target cmd : String) : Option Json :=
  match Dict.get? state target with
  | some (.obj kvs) => Dict.get? kvs cmd
  | _ => none

/-- What the last of several answers says about a command, if any does. -/
def latest : List (List (String × Json)) → String → String → Option Json
  | [], _, _ => none
  | a :: rest, target, cmd => (latest rest target cmd).or (known a target cmd)

/-- An answer refuses a command: a missing target or command, or an error code other than zero beside either. -/
inductive Refused (target cmd : String) : Json → Prop where
  | noTarget (r : List (String × Json)) (h : Dict.get? r target = none) : Refused target cmd (.obj r)
  | targetError (r t : List (String × Json)) (c : Int) (h : Dict.get? r target = some (.obj t))
      (hc : Dict.get? t "err_code" = some (.num c)) (hn : c ≠ 0) : Refused target cmd (.obj r)
  | noCommand (r t : List (String × Json)) (h : Dict.get? r target = some (.obj t)) (hc : Dict.get? t cmd = none) :
      Refused target cmd (.obj r)
  | commandError (r t x : List (String × Json)) (c : Int) (h : Dict.get? r target = some (.obj t))
      (hx : Dict.get? t cmd = some (.obj x)) (hc : Dict.get? x "err_code" = some (.num c)) (hn : c ≠ 0) :
      Refused target cmd (.obj r)

/-- No error code, or one that says there was no error; `false` counts as zero. -/
def NoError (t : List (String × Json)) : Prop :=
  Dict.get? t "err_code" = none ∨ Dict.get? t "err_code" = some (.num 0) ∨ Dict.get? t "err_code" = some (.bool false)

/-- An answer accepts a command with a result: no error beside target or command, and the result is what stands under the
command, without its error code. -/
inductive Accepted (target cmd : String) : Json → Json → Prop where
  | mk (r t x y : List (String × Json)) (h : Dict.get? r target = some (.obj t)) (hx : Dict.get? t cmd = some (.obj x))
      (ht : NoError t) (hc : NoError x) (hy : ∀ k, Dict.get? y k = if k = "err_code" then none else Dict.get? x k) :
      Accepted target cmd (.obj r) (.obj y)

end Kasa.IotSpec
