import Verif.Py.Json
/-!
# When a device was turned on (iot/iotdevice.py:630-649, smart/smartdevice.py:615-635, iot/iotstrip.py:456-474)

Times are integers, in microseconds as in Python's `datetime` and `timedelta`.  Simplified: the reported on-time is an
integer.
-/

namespace Kasa.OnSince

/-- Microseconds. -/
def second : Int := 1000000

/-- What the last update says when the property is read. -/
structure Reading where
  /-- `is_on`, or `device_on`. -/
  on : Bool
  /-- `on_time`, in seconds; a SMART device may report `None`. -/
  onTime : Option Int
  /-- `self.time`. -/
  time : Int

/-- The three copies of the code after the check for off (iotdevice.py:644-649, smartdevice.py:630-635,
iotstrip.py:469-474): the new value of `_on_since`, which is also returned.  `timedelta(0) < d > timedelta(5)` is
`0 < d and d > 5`. -/
def keepOrReplace (cached : Option Int) (since : Int) : Int :=
  match cached with
  | none => since
  | some c => if 0 < since - c ∧ since - c > 5 * second then since else c

/-- `on_since` (iotdevice.py:638-649, smartdevice.py:622-635): `_on_since` afterwards, which is also what is returned. -/
def read (cached : Option Int) (r : Reading) : Option Int :=
  if r.on then
    match r.onTime with
    | none => none
    | some t => some (keepOrReplace cached (r.time - t * second))
  else none

/-- `_on_since` after a history of reads. -/
def reads (cached : Option Int) (rs : List Reading) : Option Int := rs.foldl read cached

end Kasa.OnSince
