import Verif.Py.Dict
/-!
# What energy readings mean
-/

namespace Kasa.EmeterSpec

/-- The quantities of a meter. -/
inductive Quantity where
  | voltage | power | current | energy | total

/-- Its name in V, W, A or kWh. -/
def Quantity.base : Quantity → String
  | .voltage => "voltage"
  | .power => "power"
  | .current => "current"
  | .energy => "energy"
  | .total => "total"

/-- Its name in mV, mW, mA or Wh. -/
def Quantity.milli : Quantity → String
  | .voltage => "voltage_mv"
  | .power => "power_mw"
  | .current => "current_ma"
  | .energy => "energy_wh"
  | .total => "total_wh"

/-- The device reports `v` (in base units), in one of the units. -/
def Reports (s : List (String × Option Rat)) (q : Quantity) (v : Rat) : Prop :=
  Dict.get? s q.base = some (some v) ∨ Dict.get? s q.milli = some (some (v * 1000))

/-- The device does not contradict itself, and does not report the quantity as null. -/
structure Consistent (s : List (String × Option Rat)) (q : Quantity) : Prop where
  unique : ∀ v w, Reports s q v → Reports s q w → v = w
  base_num : Dict.get? s q.base ≠ some none
  milli_num : Dict.get? s q.milli ≠ some none

/-- No other key begins like the name of the quantity. -/
def NoLookalike (s : List (String × Option Rat)) (q : Quantity) : Prop :=
  ∀ k ∈ Dict.keys s, q.base.toList <+: k.toList → k = q.base ∨ k = q.milli

/-! ## Statistics -/

abbrev Entry := List (String × Rat)

/-- The last entry of a period. -/
def latest (entryKey : String) (k : Rat) (data : List Entry) : Option Entry :=
  data.reverse.find? (fun e => decide (Dict.get? e entryKey = some k))

/-- The energy of an entry, in Wh. -/
def energyWh (e : Entry) : Option Rat :=
  match Dict.get? e "energy_wh" with
  | some w => some w
  | none => (Dict.get? e "energy").map (· * 1000)

/-- Energy in Wh in the unit asked for. -/
def inUnit (kwh : Bool) (wh : Rat) : Rat := if kwh then wh / 1000 else wh

/-- A device uses one unit in a list: Wh in all entries, or kWh in all. -/
def Uniform (data : List Entry) : Prop :=
  (∀ e ∈ data, ∃ w, Dict.get? e "energy_wh" = some w) ∨
  (∀ e ∈ data, Dict.get? e "energy_wh" = none ∧ ∃ w, Dict.get? e "energy" = some w)

/-- All entries say what they are about. -/
def Dated (entryKey : String) (data : List Entry) : Prop := ∀ e ∈ data, ∃ k, Dict.get? e entryKey = some k

/-! ## Strips -/

/-- The sum of what the sockets report under a key. -/
def total {K : Type} [DecidableEq K] (k : K) : List (List (K × Option Rat)) → Rat
  | [] => 0
  | d :: ds => ((Dict.get? d k).join).getD 0 + total k ds

end Kasa.EmeterSpec
