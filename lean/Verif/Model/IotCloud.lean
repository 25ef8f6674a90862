import Verif.Model.IotSetup
/-!
# The cloud module of legacy devices (iot/modules/cloud.py)
-/

namespace Kasa.IotCloud

open Ops

/-- `CloudInfo` (iot/modules/cloud.py:13-25). -/
structure CloudInfo where
  provisioned : Int
  cloudConnected : Int
  firmwareDownloadPage : Json
  firmwareNotifyType : Int
  illegalType : Int
  server : Json
  stopConnect : Int
  tcspInfo : Json
  tcspStatus : Int
  username : Json

/-- A field of `from_dict`: a missing one raises. -/
def field (d : Json) (k : String) : Except Exc Json :=
  match getOpt d k with
  | .ok (some v) => .ok v
  | .ok none => .error (.other "MissingField")
  | .error e => .error e

/-- A field that is a number.  Simplified: what is no number raises. -/
def intField (d : Json) (k : String) : Except Exc Int :=
  match field d k with
  | .ok (.num n) => .ok n
  | .ok (.bool b) => .ok (if b then 1 else 0)
  | .ok _ => .error (.other "InvalidFieldValue")
  | .error e => .error e

/-- `CloudInfo.from_dict` (iot/modules/cloud.py:16-25). -/
def fromDict (d : Json) : Except Exc CloudInfo := do
  let provisioned ← intField d "binded"
  let connected ← intField d "cld_connection"
  let page ← field d "fwDlPage"
  let notify ← intField d "fwNotifyType"
  let illegal ← intField d "illegalType"
  let server ← field d "server"
  let stop ← intField d "stopConnect"
  let tcsp ← field d "tcspInfo"
  let status ← intField d "tcspStatus"
  let username ← field d "username"
  pure ⟨provisioned, connected, page, notify, illegal, server, stop, tcsp, status, username⟩

/-- `info` (iot/modules/cloud.py:56-59); `data` is that of the module. -/
def info (data : Json) : Except Exc CloudInfo := (item data "get_info").bind fromDict

/-- `is_connected` (iot/modules/cloud.py:47-50). -/
def isConnected (data : Json) : Except Exc Bool := (info data).map fun i => decide (i.cloudConnected ≠ 0)

/-! ## Operations: each returns a request; nothing is sent. -/

/-- The operations of the module. -/
inductive Op where
  | firmwares
  | server (url : String)
  | connect (username password : String)
  | disconnect

/-- `get_available_firmwares`, `set_server`, `connect`, `disconnect` (iot/modules/cloud.py:61-77): what they return, and the device
afterwards, which is sent nothing (`query_for_command`, iotmodule.py:39-41, only makes a request).  The request is that of every device but a
socket, which has no such module. -/
def run {σ : Type} (target : String) (op : Op) (device : σ) : Json × σ :=
  match op with
  | .firmwares => (IotSetup.request .plug target "get_intl_fw_list" none, device)
  | .server url => (IotSetup.request .plug target "set_server_url" (some (.obj [("server", .str url)])), device)
  | .connect u p => (IotSetup.request .plug target "bind" (some (.obj [("username", .str u), ("password", .str p)])), device)
  | .disconnect => (IotSetup.request .plug target "unbind" none, device)

end Kasa.IotCloud
