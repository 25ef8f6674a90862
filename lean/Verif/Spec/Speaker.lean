import Verif.Model.Speaker
import Verif.Lemmas.Num
/-!
# Specification: a vacuum with a speaker
-/

namespace Kasa.SpeakerSpec
open Speaker Thermostat

/-- What the owner may do. -/
inductive Op where
  | volume (x : Num)
  | locate

/-- The vacuum: what it tells of its volume, and how often it has made itself heard. -/
structure Vacuum where
  data : Info
  heard : Nat

/-- It stores what it is told and plays the sound it is told to. -/
def Vacuum.obey (v : Vacuum) (c : Command) : Vacuum :=
  if c.method = "setVolume" then { v with data := Dict.update v.data c.params }
  else if c.method = "playSelectAudio" then
    match Dict.get? c.params "audio_type" with
    | some (.str "seek_me") => { v with heard := v.heard + 1 }
    | _ => v
  else v

/-- An operation: its command is obeyed, or it raises and nothing is sent. -/
def Vacuum.step (v : Vacuum) : Op → Vacuum
  | .volume x =>
    match setVolume x with
    | .ok c => v.obey c
    | .error _ => v
  | .locate => v.obey Speaker.locate

/-- The volume that was set last among those from 0 to 100. -/
noncomputable def lastVolume (start : Num) : List Op → Num
  | [] => start
  | .volume x :: ops => open Classical in lastVolume (if InRange x 0 100 then x else start) ops
  | .locate :: ops => lastVolume start ops

/-- How often the vacuum was to be located. -/
def located : List Op → Nat
  | [] => 0
  | .locate :: ops => located ops + 1
  | _ :: ops => located ops

end Kasa.SpeakerSpec
