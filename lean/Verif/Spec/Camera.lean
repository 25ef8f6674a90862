import Verif.Model.Camera
import Std.Data.String.ToInt
/-!
# Specification: a camera that does what it is told

A camera stores fields by module and section.  It knows some methods; each of them reads or writes one section of one
module, and merges the fields it is sent into that section.
-/

namespace Kasa.CameraSpec
open Camera Smart

/-- What a camera stores. -/
abbrev Store := String → String → Dict String Json

/-- The methods that read: method, module, section. -/
def readers : List (String × String × String) :=
  [("getLensMaskConfig", "lens_mask", "lens_mask_info"), ("getDetectionConfig", "motion_detection", "motion_det"),
   ("getPersonDetectionConfig", "people_detection", "detection"), ("getPetDetectionConfig", "pet_detection", "detection"),
   ("getTamperDetectionConfig", "tamper_detection", "tamper_det"), ("getBCDConfig", "sound_detection", "bcd"),
   ("getLedStatus", "led", "config")]

/-- The methods that write. -/
def writers : List (String × String × String) :=
  [("setLensMaskConfig", "lens_mask", "lens_mask_info"), ("setDetectionConfig", "motion_detection", "motion_det"),
   ("setPersonDetectionConfig", "people_detection", "detection"), ("setPetDetectionConfig", "pet_detection", "detection"),
   ("setTamperDetectionConfig", "tamper_detection", "tamper_det"), ("setBCDConfig", "sound_detection", "bcd"),
   ("setLedStatus", "led", "config")]

/-- Where a switch lives. -/
def home : Switch → String × String
  | .lensMask => ("lens_mask", "lens_mask_info")
  | .motion => ("motion_detection", "motion_det")
  | .person => ("people_detection", "detection")
  | .pet => ("pet_detection", "detection")
  | .tamper => ("tamper_detection", "tamper_det")
  | .babyCry => ("sound_detection", "bcd")
  | .led => ("led", "config")

/-- The camera's answer to a query for one section; a method it does not know gives an error. -/
def report (s : Store) (q : Json) : List (String × Entry) :=
  match q with
  | .obj [(method, .obj [(m, .obj [("name", .str sec)])])] =>
    if (method, m, sec) ∈ readers then [(method, .value (.obj [(m, .obj [(sec, .obj (s m sec))])]))]
    else [(method, .error (-40101))]
  | _ => []

/-- What the library has after an update of a camera with these switches. -/
def update (s : Store) (have_ : List Switch) : List (String × Entry) := have_.flatMap fun w => report s (query w)

/-- The camera does what a request says; it ignores methods it does not know. -/
def obey (s : Store) (request : Json) : Store :=
  match request with
  | .obj [(method, .obj [(m, .obj [(sec, .obj params)])])] =>
    if (method, m, sec) ∈ writers then
      fun m' sec' => if m' = m ∧ sec' = sec then (s m' sec').update params else s m' sec'
    else s
  | _ => s

/-- The switches, as the owner sees them. -/
abbrev Panel := Switch → Bool

/-- What the owner may do: flip a switch, or turn the camera on or off. -/
inductive Op where
  | flip (w : Switch) (on : Bool)
  | power (on : Bool)

/-- The requests of an operation on a camera with these switches.  Only switches it has can be flipped. -/
def send (have_ : List Switch) : Op → Option Json
  | .flip w on => if w ∈ have_ then some (setEnabled w on) else none
  | .power on => setState (.present false) (decide (.lensMask ∈ have_)) on

def Store.step (have_ : List Switch) (s : Store) (op : Op) : Store :=
  match send have_ op with
  | some r => obey s r
  | none => s

/-- Turning the camera off puts the lens mask on. -/
def Panel.apply (have_ : List Switch) (p : Panel) : Op → Panel
  | .flip w on => fun x => if x = w ∧ w ∈ have_ then on else p x
  | .power on => fun x => if x = .lensMask ∧ Switch.lensMask ∈ have_ then !on else p x

/-- The camera is in the state of the panel. -/
def Holds (s : Store) (p : Panel) : Prop :=
  ∀ w, Dict.get? (s (home w).1 (home w).2) "enabled" = some (.str (if p w then "on" else "off"))

/-! ## Motor -/

/-- What the owner may do with the motor. -/
inductive Turn where
  | right | left | up | down
  | pan (n : Int)
  | tilt (n : Int)
  | move (x y : Int)
  | panStep (n : Int)
  | tiltStep (n : Int)

/-- The direction of the lens and the steps. -/
structure Pose where
  x : Int
  y : Int
  steps : Steps
  deriving DecidableEq

def Pose.turn (p : Pose) : Turn → Pose
  | .right => { p with x := p.x - p.steps.pan }
  | .left => { p with x := p.x + p.steps.pan }
  | .up => { p with y := p.y + p.steps.tilt }
  | .down => { p with y := p.y - p.steps.tilt }
  | .pan n => { p with x := p.x + n }
  | .tilt n => { p with y := p.y + n }
  | .move a b => { p with x := p.x + a, y := p.y + b }
  | .panStep n => { p with steps := { p.steps with pan := n } }
  | .tiltStep n => { p with steps := { p.steps with tilt := n } }

/-- The camera turns by the two numbers, which are sent as text. -/
def turned (xy : Int × Int) (request : Json) : Int × Int :=
  match request with
  | .obj [("do", .obj [("motor", .obj [("move", .obj [("x_coord", .str a), ("y_coord", .str b)])])])] =>
    match a.toInt?, b.toInt? with
    | some dx, some dy => (xy.1 + dx, xy.2 + dy)
    | _, _ => xy
  | _ => xy

/-- The library and the camera: the steps are kept in the library. -/
def act (st : Steps × (Int × Int)) : Turn → Steps × (Int × Int)
  | .right => (st.1, turned st.2 (panRight st.1))
  | .left => (st.1, turned st.2 (panLeft st.1))
  | .up => (st.1, turned st.2 (tiltUp st.1))
  | .down => (st.1, turned st.2 (tiltDown st.1))
  | .pan n => (st.1, turned st.2 (Camera.pan n))
  | .tilt n => (st.1, turned st.2 (Camera.tilt n))
  | .move a b => (st.1, turned st.2 (Camera.move a b))
  | .panStep n => ({ st.1 with pan := n }, st.2)
  | .tiltStep n => ({ st.1 with tilt := n }, st.2)

end Kasa.CameraSpec
