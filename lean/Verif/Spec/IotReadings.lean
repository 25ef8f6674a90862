import Verif.Model.IotReadings
import Verif.Spec.IotDevice
/-!
# Specification: what a legacy device object shows before and after its first update
-/

namespace Kasa.IotReadings

/-- What happens to a device object: it is told what discovery found, or it is updated. -/
inductive Event where
  | found (info : Info)
  | updated (env : Iot.Env)

/-- The object afterwards, whether the call raised or not. -/
def happen (o : Obj) : Event → Obj
  | .found info => (found info o).2
  | .updated env => (update env o).2

/-- The object after these. -/
def after (o : Obj) (hs : List Event) : Obj := hs.foldl happen o

/-- Discovery info in the new style: there is no system information in it, but a model. -/
def NewStyle (info : Info) : Prop := Dict.get? info "system" = none ∧ ∃ s, Dict.get? info "device_model" = some (.str s)

/-- Discovery info in the old style: it holds the system information `sys`. -/
def OldStyle (info sys : Info) : Prop :=
  sys ≠ [] ∧ IotSpec.known info "system" "get_sysinfo" = some (.obj sys)

/-- Nothing that happens is an answer from the device itself: updates fail, and discovery is in the new style. -/
def Unheard : Event → Prop
  | .found info => NewStyle info
  | .updated env => ∀ sent, ∃ e, env.answer sent = .error e

/-- What discovery tells. -/
def Event.told : Event → Option Info
  | .found info => some info
  | .updated _ => none

/-- The last thing that discovery told. -/
def lastTold : List Event → Option Info
  | [] => none
  | h :: hs => (lastTold hs).or h.told

/-- The readings that are said to need an update. -/
inductive Reading where
  | sysInfo | modules | model | hwInfo | location | rssi | mac | deviceId | time | timezone | isOn | stripIsOn
  deriving DecidableEq

/-- What they are called. -/
def Reading.name : Reading → String
  | .sysInfo => "sys_info"
  | .modules => "modules"
  | .model => "model"
  | .hwInfo => "hw_info"
  | .location => "location"
  | .rssi => "rssi"
  | .mac => "mac"
  | .deviceId => "device_id"
  | .time => "time"
  | .timezone => "timezone"
  | .isOn => "is_on"
  | .stripIsOn => "is_on"

/-- What becomes of a reading: it returns something or raises. -/
def Reading.outcome (lower : String → String) (isTime : Iot.Mod → Bool) (read : Iot.Mod → Except Exc Unit) (o : Obj) : Reading → Except Exc Unit
  | .sysInfo => (IotReadings.sysInfo o).map fun _ => ()
  | .modules => (IotReadings.modules o).map fun _ => ()
  | .model => (IotReadings.model lower o).map fun _ => ()
  | .hwInfo => (IotReadings.hwInfo o).map fun _ => ()
  | .location => (IotReadings.location o).map fun _ => ()
  | .rssi => (IotReadings.rssi o).map fun _ => ()
  | .mac => (IotReadings.mac o).map fun _ => ()
  | .deviceId => (IotReadings.deviceId o).map fun _ => ()
  | .time => IotReadings.time isTime read "time" o
  | .timezone => IotReadings.time isTime read "timezone" o
  | .isOn => (IotReadings.isOn o).map fun _ => ()
  | .stripIsOn => (IotReadings.stripIsOn o).map fun _ => ()

/-- Where `sys` says the device is, as reported or in ten-thousandths of a degree, which need to be numbers. -/
inductive Place (sys : Info) : Coordinate × Coordinate → Prop where
  | degrees {a b} : Dict.get? sys "latitude" = some a → Dict.get? sys "longitude" = some b → Place sys (.reported a, .reported b)
  | scaled {m n : Int} : (Dict.get? sys "latitude" = none ∨ Dict.get? sys "longitude" = none) →
      Dict.get? sys "latitude_i" = some (.num m) → Dict.get? sys "longitude_i" = some (.num n) →
      Place sys (.ratio (m / 10000), .ratio (n / 10000))
  | nowhere : (Dict.get? sys "latitude" = none ∨ Dict.get? sys "longitude" = none) →
      (Dict.get? sys "latitude_i" = none ∨ Dict.get? sys "longitude_i" = none) → Place sys (.reported .null, .reported .null)

/-- The hardware address `a`, written with dashes or colons, with colons. -/
def WithColons (a r : String) : Prop := r.toList = a.toList.map fun c => if c = '-' then ':' else c

/-- The object shows what stands in the system information `sys`, and nothing else. -/
structure ShowsInfo (o : Obj) (sys : Info) : Prop where
  info : sysInfo o = .ok (.obj sys)
  name : alias o = .ok (Ops.orNone (Dict.get? sys "alias"))
  hardware : ∃ hw, hwInfo o = .ok hw ∧ Dict.WF hw ∧ ∀ k, Dict.get? hw k =
    if k ∈ ["sw_ver", "hw_ver", "mac", "mic_mac", "type", "mic_type", "hwId", "fwId", "oemId", "dev_name"] then Dict.get? sys k else none
  place : ∀ p, Place sys p → location o = .ok p
  signal : ∀ n, Dict.get? sys "rssi" = some (.num n) → rssi o = .ok (some n)
  noSignal : Dict.get? sys "rssi" = none → rssi o = .ok none
  switch : ∀ n, Dict.get? sys "relay_state" = some (.num n) → isOn o = .ok (n ≠ 0)
  address : ∀ a, Dict.get? sys "mac" = some (.str a) → '-' ∈ a.toList ∨ ':' ∈ a.toList →
    ∃ r, mac o = .ok r ∧ deviceId o = .ok r ∧ WithColons a r

/-- The last of the reported feature texts that is not empty. -/
def lastFeatures : List Info → Option String
  | [] => none
  | r :: rs => (lastFeatures rs).or (match Dict.get? r "feature" with | some (.str s) => if s = "" then none else some s | _ => none)

/-- `part` is one of the parts of `s` between colons. -/
def Part (part s : String) : Prop :=
  ':' ∉ part.toList ∧ ∃ before rest, s.toList = before ++ part.toList ++ rest ∧ (before = [] ∨ before.getLast? = some ':') ∧
    (rest = [] ∨ rest.head? = some ':')

end Kasa.IotReadings
