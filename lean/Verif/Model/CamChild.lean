import Verif.Model.DeviceInfo
/-!
# What a camera behind a hub is (smartcam/smartcamchild.py)
-/

namespace Kasa.DeviceInfo

open Ops SysInfo

/-- The keys of `_map_child_info_from_parent` (smartcamchild.py:66-70). -/
def childKey (k : String) : String :=
  (Dict.get? [("device_model", "model"), ("sw_ver", "fw_ver"), ("hw_id", "hwId")] k).getD k

/-- `_map_child_info_from_parent` (smartcamchild.py:64-71). -/
def mapChild (info : List (String × Json)) : List (String × Json) :=
  info.foldl (fun d p => Dict.set d (childKey p.1) p.2) []

/-- A camera behind a hub: `_child_info_from_parent`, `_info` and `_device_type` (smartcamchild.py:48, 81-85, 87-92).  The rest of
the device is not part of this model. -/
structure CamChild where
  fromParent : List (String × Json)
  info : List (String × Json)
  kind : DeviceType

/-- `_update_internal_state` (smartcamchild.py:73-85): what the hub says of the camera. -/
def CamChild.told (c : CamChild) (info : List (String × Json)) : CamChild := { c with fromParent := info, info := mapChild info }

/-- `__init__` (smartcamchild.py:36-48, with smartchilddevice.py:51): told what the hub says, and then forgetting the original. -/
def CamChild.new (info : List (String × Json)) : CamChild := { (CamChild.told ⟨[], [], .unknown⟩ info) with fromParent := [] }

/-- A string or nothing of an info; simplified: other values count as nothing. -/
def textOf (info : List (String × Json)) (k : String) : Option String :=
  match Dict.get? info k with
  | some (.str s) => some s
  | _ => none

/-- `device_type` (smartcamchild.py:87-92). -/
def CamChild.deviceType (c : CamChild) : DeviceType := cameraDeviceType c.kind (!c.info.isEmpty) (textOf c.info "device_type")

/-- The camera after its `device_type` was read: it is remembered (smartcamchild.py:91). -/
def CamChild.read (c : CamChild) : CamChild := { c with kind := c.deviceType }

/-- `_get_device_info` (smartcamchild.py:95-121); `cifp` is `info.get(CHILD_INFO_FROM_PARENT)`, and `info` is what is passed on when
it is empty. -/
def camChildInfo (info : Json) (cifp : List (String × Json)) (discovery : Option Json) : Except Exc DeviceInfo :=
  if cifp.isEmpty then camInfo info discovery
  else do
    let model ← text (← item (.obj cifp) "device_model")
    let kind := cameraKind (textOf cifp "device_type")
    let fw := firmware (← text (← item (.obj cifp) "sw_ver"))
    let family ← text (← item (.obj cifp) "device_type")
    let hw ← item (.obj cifp) "hw_ver"
    pure ⟨model, model, "tapo", family, kind, hw, fw.1, fw.2, true, orNone (← getOpt (.obj cifp) "region")⟩

/-- `device_info` (smartcamchild.py:50-62). -/
def CamChild.deviceInfo (c : CamChild) : Except Exc DeviceInfo :=
  camChildInfo (.obj [("child_info_from_parent", .obj c.fromParent)]) c.fromParent none

/-- What happens to the camera: the hub tells about it, or somebody reads its kind. -/
inductive CamStep
  | told (info : List (String × Json))
  | read

/-- One step. -/
def CamChild.step (c : CamChild) : CamStep → CamChild
  | .told i => c.told i
  | .read => c.read

/-- Any history. -/
def CamChild.run (c : CamChild) (steps : List CamStep) : CamChild := steps.foldl CamChild.step c

end Kasa.DeviceInfo
