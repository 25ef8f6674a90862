import Verif.Py.Dict
import Verif.Py.Monad
/-!
# Python numbers as arguments

A float that is finite is an exact rational.
-/

namespace Kasa

/-- A value a caller can pass where a number is expected. -/
inductive Num where
  | int (n : Int)
  | bool (b : Bool)
  | float (x : Rat)
  | inf (positive : Bool)
  | nan
  /-- Anything that cannot be compared with a number, and whether it counts as true. -/
  | other (truthy : Bool)
  deriving DecidableEq

namespace Num

/-- `isinstance(x, int)`; `bool` is a subclass. -/
def isInt : Num → Bool
  | .int _ => true
  | .bool _ => true
  | _ => false

/-- `isinstance(x, int | float)`. -/
def isNumber : Num → Bool
  | .other _ => false
  | _ => true

/-- The number, if it is one and finite. -/
def value : Num → Option Rat
  | .int n => some n
  | .bool b => some (if b then 1 else 0)
  | .float x => some x
  | _ => none

/-- `x < b`; comparing what is no number raises, comparing NaN gives false. -/
def lt (x : Num) (b : Rat) : Except Exc Bool :=
  match x with
  | .int n => .ok (decide ((n : Rat) < b))
  | .bool c => .ok (decide ((if c then 1 else 0 : Rat) < b))
  | .float y => .ok (decide (y < b))
  | .inf p => .ok (!p)
  | .nan => .ok false
  | .other _ => .error (.other "TypeError")

/-- `x > b`. -/
def gt (x : Num) (b : Rat) : Except Exc Bool :=
  match x with
  | .int n => .ok (decide (b < (n : Rat)))
  | .bool c => .ok (decide (b < (if c then 1 else 0 : Rat)))
  | .float y => .ok (decide (b < y))
  | .inf p => .ok p
  | .nan => .ok false
  | .other _ => .error (.other "TypeError")

/-- `x == b`: equality raises nothing. -/
def eq (x : Num) (b : Rat) : Bool := decide (x.value = some b)

/-- `x <= b`. -/
def le (x : Num) (b : Rat) : Except Exc Bool := do
  if (← x.lt b) then pure true else pure (x.eq b)

/-- `bool(x)`. -/
def truthy : Num → Bool
  | .int n => decide (n ≠ 0)
  | .bool b => b
  | .float x => decide (x ≠ 0)
  | .inf _ => true
  | .nan => true
  | .other t => t

/-- `lo <= x <= hi`. -/
def between (x : Num) (lo hi : Rat) : Except Exc Bool := do
  match x with
  | .nan => pure false
  | _ =>
    if (← x.lt lo) then pure false
    else if (← x.gt hi) then pure false
    else pure true

end Num

/-- A value in a request. -/
inductive PyV where
  | num (n : Num)
  | str (s : String)
  | arr (xs : List PyV)
  | obj (kvs : List (String × PyV))

/-- A command: where it goes, its name, its parameters.  Newer devices have no target. -/
structure Command where
  target : String
  method : String
  params : List (String × PyV)

/-- `if x < lo or x > hi: raise ..`. -/
def refuseOutside (x : Num) (lo hi : Rat) (e : Exc) : Except Exc Unit := do
  if (← x.lt lo) then .error e
  else if (← x.gt hi) then .error e
  else pure ()

end Kasa
