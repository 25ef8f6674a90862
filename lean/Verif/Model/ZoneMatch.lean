import Verif.Model.TimeZone
/-!
# Which time zones are taken for the same (iot/iottimezone.py)
-/

namespace Kasa.Time

/-- A day later, as `+ timedelta(days=1)` of a `datetime`. -/
def nextDay (w : Wall) : Wall :=
  if w.day < daysIn w.year w.month then { w with day := w.day + 1 }
  else if w.month < 12 then { w with month := w.month + 1, day := 1 }
  else { w with year := w.year + 1, month := 1, day := 1 }

/-- `start_day + timedelta(days=i)` (iottimezone.py:68), for the years that `datetime` has. -/
def plusDays (w : Wall) : Nat → Wall
  | 0 => w
  | i + 1 => nextDay (plusDays w i)

/-- The loop of `_is_same_timezone` over the days (iottimezone.py:67-71). -/
def sameOn (a b : Wall → Option Int) (start : Wall) : List Nat → Bool
  | [] => true
  | i :: is => if a (plusDays start i) ≠ b (plusDays start i) then false else sameOn a b start is

/-- `_is_same_timezone` (iottimezone.py:59-71) of zones with these offsets, for `datetime.now()` of this year. -/
def isSame (year : Int) (a b : Wall → Option Int) : Bool := sameOn a b ⟨year, 1, 1, 12, 0, 0⟩ (List.range 365)

/-- `utcoffset` of a zone: those of named zones are given by the time zone database, `zones`; other ones are fixed. -/
def utcoffset (zones : String → Wall → Option Int) : Tz → Wall → Option Int
  | .zone key => zones key
  | .other off _ => fun _ => some off

/-- The call of it with a zone and a named one (iottimezone.py:36, 52). -/
def sameZone (zones : String → Wall → Option Int) (year : Int) (tz : Tz) (name : String) : Bool :=
  isSame year (utcoffset zones tz) (zones name)

end Kasa.Time
