import Verif.Model.Thermostat
/-!
# The speaker of robot vacuums (smart/modules/speaker.py)

`data` is the answer to `getVolume`, the only query of the module (speaker.py:47-51).
-/

namespace Kasa.Speaker
open Setters Thermostat

/-- `volume` (speaker.py:53-56). -/
def volume (data : Info) : Except Exc PyV := item data "volume"

/-- `set_volume` (speaker.py:58-63). -/
def setVolume (x : Num) : Except Exc Command := do
  refuseOutside x 0 100 (.other "ValueError")
  pure (call "setVolume" [("volume", .num x)])

/-- `locate` (speaker.py:65-67). -/
def locate : Command := call "playSelectAudio" [("audio_type", .str "seek_me")]

end Kasa.Speaker
