import Verif.Model.SmartModule
import Verif.Py.Ops
/-!
# Cameras: switches, power, motor, battery (smartcam/modules, smartcam/smartcamdevice.py)

A setter makes one query; the model gives its request.
-/

namespace Kasa.Camera
open SmartModule Smart

/-- The modules with an on/off switch. -/
inductive Switch where
  | lensMask | motion | person | pet | tamper | babyCry | led
  deriving DecidableEq, Repr

/-- `QUERY_GETTER_NAME` (lensmask.py:18, motiondetection.py:19, persondetection.py:19, petdetection.py:19,
tamperdetection.py:19, babycrydetection.py:19, led.py:14). -/
def getter : Switch → String
  | .lensMask => "getLensMaskConfig"
  | .motion => "getDetectionConfig"
  | .person => "getPersonDetectionConfig"
  | .pet => "getPetDetectionConfig"
  | .tamper => "getTamperDetectionConfig"
  | .babyCry => "getBCDConfig"
  | .led => "getLedStatus"

/-- `QUERY_MODULE_NAME` (lensmask.py:19, motiondetection.py:20, persondetection.py:20, petdetection.py:20,
tamperdetection.py:20, babycrydetection.py:20, led.py:15). -/
def moduleName : Switch → String
  | .lensMask => "lens_mask"
  | .motion => "motion_detection"
  | .person => "people_detection"
  | .pet => "pet_detection"
  | .tamper => "tamper_detection"
  | .babyCry => "sound_detection"
  | .led => "led"

/-- `QUERY_SECTION_NAMES` (lensmask.py:20, motiondetection.py:21, persondetection.py:21, petdetection.py:21,
tamperdetection.py:21, babycrydetection.py:21, led.py:16). -/
def sectionName : Switch → String
  | .lensMask => "lens_mask_info"
  | .motion => "motion_det"
  | .person => "detection"
  | .pet => "detection"
  | .tamper => "tamper_det"
  | .babyCry => "bcd"
  | .led => "config"

/-- The method and the section of the setter (lensmask.py:31-33, motiondetection.py:47-49, persondetection.py:47-49,
petdetection.py:47-49, tamperdetection.py:47-49, babycrydetection.py:47-49, led.py:30). -/
def setter : Switch → String × String
  | .lensMask => ("setLensMaskConfig", "lens_mask_info")
  | .motion => ("setDetectionConfig", "motion_det")
  | .person => ("setPersonDetectionConfig", "detection")
  | .pet => ("setPetDetectionConfig", "detection")
  | .tamper => ("setTamperDetectionConfig", "tamper_det")
  | .babyCry => ("setBCDConfig", "bcd")
  | .led => ("setLedStatus", "config")

/-- The section that `enabled` reads (lensmask.py:25, motiondetection.py:41, persondetection.py:41, petdetection.py:41,
tamperdetection.py:41, babycrydetection.py:41, led.py:21). -/
def readSection : Switch → String
  | .lensMask => "lens_mask_info"
  | .motion => "motion_det"
  | .person => "detection"
  | .pet => "detection"
  | .tamper => "tamper_det"
  | .babyCry => "bcd"
  | .led => "config"

/-- `query` (smartcammodule.py:54-64). -/
def query (w : Switch) : Json :=
  .obj [(getter w, .obj [(moduleName w, .obj [("name", .str (sectionName w))])])]

/-- `_query_setter_helper` (smartcamdevice.py:187-192). -/
def setterRequest (method module section_ : String) (params : Json) : Json :=
  .obj [(method, .obj [(module, .obj [(section_, params)])])]

/-- `set_enabled`, `set_led` (lensmask.py:27-33, motiondetection.py:43-49, led.py:23-30 and the others alike). -/
def setEnabled (w : Switch) (on : Bool) : Json :=
  setterRequest (setter w).1 (moduleName w) (setter w).2 (.obj [("enabled", .str (if on then "on" else "off"))])

/-- `enabled`, `led` (lensmask.py:22-25, motiondetection.py:38-41, led.py:18-21 and the others alike); `last` is the last
update. -/
def enabled (w : Switch) (last : List (String × Entry)) : Except Exc Bool := do
  match (← camData (getter w) (moduleName w) [getter w] last) with
  | .bare v =>
    let fields ← Ops.item v (readSection w)
    let x ← Ops.item fields "enabled"
    pure (decide (x = .str "on"))
  | _ => .error .kasa

/-- `is_on` of the camera module (camera.py:51-56); `hasMask` tells whether there is a lens mask module. -/
def moduleIsOn (hasMask : Bool) (last : List (String × Entry)) : Except Exc Bool :=
  if hasMask then (enabled .lensMask last).map (fun b => !b) else .ok true

/-- `set_state` of the camera module (camera.py:58-66): the request, if one is made. -/
def moduleSetState (hasMask : Bool) (on : Bool) : Option Json :=
  if hasMask then some (setEnabled .lensMask (!on)) else none

/-- The camera module of the device: absent, or present and possibly disabled because of errors. -/
inductive CamModule where
  | absent
  | present (disabled : Bool)
  deriving DecidableEq

/-- `is_on` of the device (smartcamdevice.py:237-243). -/
def isOn (m : CamModule) (hasMask : Bool) (last : List (String × Entry)) : Except Exc Bool :=
  match m with
  | .present false => moduleIsOn hasMask last
  | _ => .ok true

/-- `set_state` of the device (smartcamdevice.py:245-250); `turn_on` and `turn_off` call it (smart/smartdevice.py:721-727). -/
def setState (m : CamModule) (hasMask : Bool) (on : Bool) : Option Json :=
  match m with
  | .present false => moduleSetState hasMask on
  | _ => none

/-! ## Motor -/

/-- `PanTilt`: the two steps (pantilt.py:8-9, 16-17). -/
structure Steps where
  pan : Int := 30
  tilt : Int := 10
  deriving DecidableEq

/-- `move` (pantilt.py:103-107). -/
def move (pan tilt : Int) : Json :=
  .obj [("do", .obj [("motor", .obj [("move", .obj [("x_coord", .str pan.repr), ("y_coord", .str tilt.repr)])])])]

/-- `pan` (pantilt.py:95-97). -/
def pan (n : Int) : Json := move n 0

/-- `tilt` (pantilt.py:99-101). -/
def tilt (n : Int) : Json := move 0 n

/-- The actions of the features (pantilt.py:28-78). -/
def panRight (s : Steps) : Json := pan (s.pan * -1)
def panLeft (s : Steps) : Json := pan s.pan
def tiltUp (s : Steps) : Json := tilt s.tilt
def tiltDown (s : Steps) : Json := tilt (s.tilt * -1)

/-! ## Battery -/

/-- `battery_percent` (battery.py:90-93). -/
def batteryPercent (info : Json) : Except Exc Json := Ops.item info "battery_percent"

/-- `battery_low` (battery.py:95-98). -/
def batteryLow (info : Json) : Except Exc Json := Ops.item info "low_battery"

/-- `battery_charging` (battery.py:110-113). -/
def batteryCharging (info : Json) : Except Exc Bool :=
  (Ops.item info "battery_voltage").map fun v => decide (v ≠ .str "NO")

end Kasa.Camera
