import Verif.Lemmas.Num
/-!
# What may be sent to a light
-/

namespace Kasa.LightsSpec

/-- A parameter, if there, is a number within bounds. -/
def Bounded (params : List (String × PyV)) (key : String) (lo hi : Rat) : Prop :=
  ∀ v, Dict.get? params key = some v → ∃ x, v = .num x ∧ InRange x lo hi

/-- The documented ranges: brightness and saturation in percent, hue in degrees; a colour temperature is within the range of the
light, or 0 for "use the colour". -/
structure Legal (params : List (String × PyV)) (lo hi : Rat) : Prop where
  brightness : Bounded params "brightness" 0 100
  hue : Bounded params "hue" 0 360
  saturation : Bounded params "saturation" 0 100
  temp : ∀ v, Dict.get? params "color_temp" = some v → v = .num (.int 0) ∨ ∃ x, v = .num x ∧ InRange x lo hi

end Kasa.LightsSpec
