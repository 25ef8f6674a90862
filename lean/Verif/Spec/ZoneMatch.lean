import Verif.Model.ZoneMatch
/-!
# Specification: zones that agree
-/

namespace Kasa.TimeSpec

open Time

/-- Noon of a day of that year, other than the last day of a leap year. -/
def IsNoon (year : Int) (w : Wall) : Prop :=
  w.valid = true ∧ w.year = year ∧ w.hour = 12 ∧ w.minute = 0 ∧ w.second = 0 ∧ ¬ (w.month = 12 ∧ w.day = 31 ∧ daysIn year 2 = 29)

/-- The zones have the same offset at noon of the days of that year, but perhaps for the last day of a leap year. -/
def AgreeAtNoon (year : Int) (a b : Wall → Option Int) : Prop := ∀ w, IsNoon year w → a w = b w

/-- The zones have the same offset at all times. -/
def SameOffsets (a b : Wall → Option Int) : Prop := ∀ w, w.valid = true → a w = b w

end Kasa.TimeSpec
