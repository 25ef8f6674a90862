import Verif.Model.TimeZone
/-!
# Devices that do what they are told, for C59
-/

namespace Kasa.TimeSpec

open Time

/-- A legacy device: the clock it reports, and the zone index if it reports one. -/
structure LegacyDevice where
  clock : Dict String Json
  index : Option Int

/-- What it answers to `get_time` and `get_timezone`. -/
def LegacyDevice.report (d : LegacyDevice) : Json :=
  .obj (("get_time", .obj d.clock) ::
    match d.index with
    | some i => [("get_timezone", .obj [("index", .num i)])]
    | none => [])

/-- It sets its clock to what it is told, and its zone if it is told to. -/
def LegacyDevice.obey (d : LegacyDevice) (cmd : String × Dict String Json) : LegacyDevice :=
  if cmd.1 = "set_time" then { d with clock := cmd.2 }
  else if cmd.1 = "set_timezone" then
    { clock := cmd.2
      index := match Dict.get? cmd.2 "index" with
        | some (.num i) => some i
        | _ => d.index }
  else d

/-- A SMART device stores what it is sent over what it had. -/
def smartObey (had sent : Dict String Json) : Dict String Json := Dict.update had sent

/-- Two instants less than a second apart. -/
def withinSecond (a b : Int) : Prop := a - b < 1000000 ∧ b - a < 1000000

/-- The instant that is meant: a time without a zone is on the clock of the device's zone, which is `off` ahead of UTC or
a named zone. -/
def meant (z : Zones) (deviceZone : Tz) : Moment → Int
  | .aware utc _ => utc
  | .naive wall =>
    match deviceZone with
    | .other off _ => wall - off
    | .zone key => z.instant key wall

/-- The zone stands for the one that was asked for: it is that zone, or one with the same offsets. -/
def standsFor (same : Tz → String → Bool) (asked : Tz) (name : String) : Prop :=
  asked = .zone name ∨ same asked name = true

end Kasa.TimeSpec
