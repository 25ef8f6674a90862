import Verif.Model.IotCloud
/-!
# Specification: a device with an account
-/

namespace Kasa.IotCloud.Spec

/-- The account of a device: its owner's name and password, and the server of updates. -/
structure Account where
  owner : Option (String × String)
  server : String
  deriving DecidableEq

/-- What an operation should do. -/
def meant (a : Account) : Op → Account
  | .firmwares => a
  | .server url => { a with server := url }
  | .connect u p => { a with owner := some (u, p) }
  | .disconnect => { a with owner := none }

/-- The device does what a request to its cloud service says. -/
def obey (target : String) (a : Account) (request : Json) : Account :=
  match request.get? target with
  | some call =>
    match call.get? "bind", call.get? "unbind", call.get? "set_server_url" with
    | some arg, _, _ =>
      match arg.get? "username", arg.get? "password" with
      | some (.str u), some (.str p) => { a with owner := some (u, p) }
      | _, _ => a
    | none, some _, _ => { a with owner := none }
    | none, none, some arg =>
      match arg.get? "server" with
      | some (.str url) => { a with server := url }
      | _ => a
    | none, none, none => a
  | none => a

/-- The fields of the cloud information of a device. -/
def fields : List String :=
  ["binded", "cld_connection", "fwDlPage", "fwNotifyType", "illegalType", "server", "stopConnect", "tcspInfo", "tcspStatus", "username"]

/-- The device reports all of it, and whether it is connected. -/
structure Reports (d : List (String × Json)) (connected : Bool) : Prop where
  numbers : ∀ k ∈ ["binded", "fwNotifyType", "illegalType", "stopConnect", "tcspStatus"], ∃ n, Dict.get? d k = some (.num n)
  texts : ∀ k ∈ ["fwDlPage", "server", "tcspInfo", "username"], ∃ s, Dict.get? d k = some (.str s)
  connection : Dict.get? d "cld_connection" = some (.num (if connected then 1 else 0))

end Kasa.IotCloud.Spec
