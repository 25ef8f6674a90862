import Verif.Model.SmartModule
/-!
# Specification: when a module may be queried

In terms of what can be observed of a module: its updates, whether they queried it and how they ended, and its commands.
-/

namespace Kasa.SmartModule.Spec

/-- What is observed, newest first in a history. -/
inductive Rec where
  /-- An update of the device: whether the module was queried, whether the update got as far as the modules, and whether the
  module could use its data. -/
  | update (t : Rat) (queried done ok : Bool)
  /-- The first update, with data of the negotiation. -/
  | preload (t : Rat) (ok : Bool)
  /-- The same, for the module that then counts as queried. -/
  | cloud (t : Rat) (ok : Bool)
  | command
  deriving DecidableEq

/-- The observations of a history. -/
def observe (k : Kind) : List Event → List Rec
  | [] => []
  | .update t done ok :: es => .update t (queried k (run k es) t) done ok :: observe k es
  | .preload t ok :: es => .preload t ok :: observe k es
  | .cloud t ok :: es => .cloud t ok :: observe k es
  | .command :: es => .command :: observe k es

/-- Failed queries since the module could last use its data; ten are final. -/
def failuresInARow : List Rec → Nat
  | [] => 0
  | .update _ q done ok :: r =>
    if failuresInARow r ≥ 10 then failuresInARow r
    else if !done then failuresInARow r
    else if ok then 0
    else if q then failuresInARow r + 1
    else failuresInARow r
  | .preload _ ok :: r => if failuresInARow r ≥ 10 then failuresInARow r else if ok then 0 else failuresInARow r
  | .cloud _ ok :: r => if failuresInARow r ≥ 10 then failuresInARow r else if ok then 0 else failuresInARow r + 1
  | .command :: r => failuresInARow r

/-- The time of the last query that an update completed, if no command came after it. -/
def lastQuery : List Rec → Option Rat
  | [] => none
  | .update t q done _ :: r => if q && done then some t else lastQuery r
  | .preload t _ :: _ => some t
  | .cloud t _ :: _ => some t
  | .command :: _ => none

/-- How long a module waits: 30 seconds for each failure in a row, a day below a hub, otherwise its own interval. -/
def wait (k : Kind) (failures : Nat) : Rat :=
  if failures > 0 then ((30 * failures : Nat) : Rat) else if k.hubChild then 86400 else ((k.interval : Nat) : Rat)

/-- `time.monotonic()` is positive. -/
def PositiveTime : Event → Prop
  | .update t _ _ => 0 < t
  | .preload t _ => 0 < t
  | .cloud t _ => 0 < t
  | .command => True

end Kasa.SmartModule.Spec
