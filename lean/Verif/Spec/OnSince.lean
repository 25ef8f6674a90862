import Verif.Model.OnSince
/-!
# What `on_since` should be
-/

namespace Kasa.OnSinceSpec

open OnSince (Reading)

/-- The time the device was turned on according to a reading. -/
def turnedOn (r : Reading) : Option Int :=
  if r.on then r.onTime.map (fun t => r.time - t * 1000000) else none

/-- At most five seconds apart. -/
def Close (a b : Int) : Prop := a - b ≤ 5000000 ∧ b - a ≤ 5000000

end Kasa.OnSinceSpec
