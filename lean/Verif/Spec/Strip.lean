import Verif.Py.Json
/-!
# What a strip reports, and what its sockets do
-/

namespace Kasa.StripSpec

/-- A socket in the system information of a strip. -/
structure Socket where
  id : String
  on : Bool
  /-- Seconds. -/
  onTime : Int
  rest : List (String × Json)

/-- The entry of a socket in the system information. -/
def Socket.json (s : Socket) : Json :=
  .obj ([("id", .str s.id), ("state", .num (if s.on then 1 else 0)), ("on_time", .num s.onTime)] ++ s.rest)

/-- System information that reports these sockets. -/
def Reports (sys : Json) (sockets : List Socket) : Prop :=
  sys.get? "children" = some (.arr (sockets.map Socket.json)) ∧ (sockets.map (·.id)).Nodup

/-- The relays of a device, by id. -/
abbrev Relays := String → Bool

/-- What a device does with a request to switch one socket. -/
def Switches (req : Json) (id : String) (on : Bool) : Prop :=
  req.get? "context" = some (.obj [("child_ids", .arr [.str id])]) ∧
  req.get? "system" = some (.obj [("set_relay_state", .obj [("state", .num (if on then 1 else 0))])])

/-- How the relays change over a list of requests, each of which switches one socket. -/
inductive Run : Relays → List Json → Relays → Prop where
  | nil (r : Relays) : Run r [] r
  | cons (r r' : Relays) (req : Json) (reqs : List Json) (id : String) (on : Bool) (hs : Switches req id on)
      (h : Run (fun i => if i = id then on else r i) reqs r') : Run r (req :: reqs) r'

/-- The requests switch these sockets, in this order. -/
def SwitchesAll (on : Bool) : List Json → List String → Prop
  | [], [] => True
  | req :: reqs, id :: ids => Switches req id on ∧ SwitchesAll on reqs ids
  | _, _ => False

/-- The time a socket was turned on, when the clock says `time` (microseconds). -/
def Socket.turnedOn (time : Int) (s : Socket) : Option Int := if s.on then some (time - s.onTime * 1000000) else none

end Kasa.StripSpec
