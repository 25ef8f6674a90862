import Verif.Py.Monad
import Verif.Model.Factory
/-!
# Connecting (device_factory.py `connect`, discover.py `try_connect_all`)

Every await may fail with any exception.  What it answers, or with what it fails, is decided by the environment from the
history, so the theorems range over every behaviour of devices, network and callers (who may cancel).
-/

namespace Kasa.Connect

open Config Factory

/-- What happens, in order.  Protocols are numbered in the order of creation. -/
inductive Event where
  /-- `get_protocol` created protocol `id`. -/
  | created (id : Nat) (config : DeviceConfig) (proto : Proto) (transport : Transport)
  /-- The system information was asked for over protocol `id`; did it succeed? -/
  | asked (id : Nat) (ok : Bool)
  /-- `device.update()` of a device of that class using protocol `id`; did it succeed? -/
  | updated (id : Nat) (cls : DevClass) (ok : Bool)
  /-- `protocol.close()` was called. -/
  | closed (id : Nat)
  /-- `on_attempt` was called. -/
  | attempt (id : Nat) (success : Bool)
  deriving DecidableEq

/-- The environment's choices. -/
structure Env where
  /-- The answer to the system information query. -/
  answer : List Event → Except Exc Json
  /-- Does filling the device from that answer succeed? (`update_from_discover_info` indexes into the answer.) -/
  fill : List Event → Json → Except Exc Unit
  /-- The outcome of the device's first update. -/
  update : List Event → Except Exc Unit
  /-- The outcome of closing. -/
  close : List Event → Except Exc Unit
  /-- The outcome of the `on_attempt` callback. -/
  callback : List Event → Except Exc Unit
  /-- `str.lower`. -/
  lower : String → String

/-- The world: everything that happened, in order. -/
abbrev W := List Event

/-- A connected device: its class and its protocol. -/
structure Device where
  cls : DevClass
  protocol : Nat
  deriving DecidableEq

/-- A created protocol. -/
structure Protocol where
  id : Nat
  proto : Proto
  transport : Transport
  deriving DecidableEq

def log (e : Event) : PyM W Unit := PyM.modifyS (fun w => w ++ [e])

section
variable (env : Env)

/-- `await protocol.query(GET_SYSINFO_QUERY)` (device_factory.py:110). -/
def query (p : Protocol) : PyM W Json := do
  let w ← PyM.getS
  match env.answer w with
  | .ok j => do log (.asked p.id true); pure j
  | .error e => do log (.asked p.id false); PyM.raise e

/-- `await device.update()`. -/
def update (p : Protocol) (cls : DevClass) : PyM W Unit := do
  let w ← PyM.getS
  match env.update w with
  | .ok _ => log (.updated p.id cls true)
  | .error e => do log (.updated p.id cls false); PyM.raise e

/-- `await protocol.close()`. -/
def close (id : Nat) : PyM W Unit := do
  let w ← PyM.getS
  log (.closed id)
  PyM.lift (env.close w)

/-- The branch for legacy devices (device_factory.py:110-117). -/
def connectLegacy (p : Protocol) : PyM W Device := do
  let info ← query env p
  let cls ← PyM.lift (SysInfo.classOf env.lower info)
  let w ← PyM.getS
  PyM.lift (env.fill w info)
  update env p (.iot cls)
  pure { cls := .iot cls, protocol := p.id }

/-- `_connect` (device_factory.py:86-130).  Logging is left out. -/
def connectWith (config : DeviceConfig) (p : Protocol) : PyM W Device :=
  if p.proto = .iot ∧ p.transport = .xor then connectLegacy env p
  else
    match classFromFamily config.connectionType.family.value config.connectionType.https false with
    | some cls => do
      update env p cls
      pure { cls, protocol := p.id }
    | none => PyM.raise .unsupported

/-- The number of the next protocol: how many were created. -/
def nextId : W → Nat
  | [] => 0
  | .created .. :: w => nextId w + 1
  | _ :: w => nextId w

/-- `get_protocol(config=config)` as an effect: it creates an object, or returns `None`. -/
def create (config : DeviceConfig) (strict : Bool) : PyM W (Option Protocol) := do
  let w ← PyM.getS
  match getProtocol config strict with
  | some (proto, transport) => do
    log (.created (nextId w) config proto transport)
    pure (some { id := nextId w, proto, transport })
  | none => pure none

/-- `try: return await _connect(..)  except: await protocol.close(); raise` (device_factory.py:79-83). -/
def connectOrClose (config : DeviceConfig) (p : Protocol) : PyM W Device :=
  PyM.tryExcept (connectWith env config p) (fun e => do
    close env p.id
    PyM.raise e)

/-- The checks and the configuration (device_factory.py:67-70).  The empty host counts as none, as it does in Python. -/
def resolve (host : Option String) (config : Option DeviceConfig) : Except Exc DeviceConfig :=
  match (if host = some "" then none else host), config with
  | some _, some _ => .error .kasa
  | none, none => .error .kasa
  | some h, none => .ok (ofHost h)
  | none, some c => .ok c

/-- `connect` (device_factory.py:48-83). -/
def connect (host : Option String) (config : Option DeviceConfig) : PyM W Device := do
  let c ← PyM.lift (resolve host config)
  let p ← create c false
  match p with
  | none => PyM.raise .unsupported
  | some p => connectOrClose env c p

/-! ## Trying everything -/

/-- A key of `candidates` (discover.py:641-644). -/
abbrev Key := Proto × Transport × DevClass × Bool

/-- `main_device_families` (discover.py:634-640); a set, so iterated in some order. -/
def mainFamilies : List Family := [.smartTapoPlug, .iotSmartPlugSwitch, .smartIpCamera, .smartTapoRobovac, .iotIpCamera]

/-- The parameters tried, in order (discover.py:649-660). -/
def paramsTried (order : List Family) : List ConnParams :=
  Encryption.all.flatMap fun encryption =>
    order.flatMap fun family =>
      [true, false].flatMap fun https =>
        [none, some 2].map fun loginVersion => { family, encryption, loginVersion, https, httpPort := none }

/-- One step of the dict comprehension (discover.py:645-676). -/
def addCandidate (base : DeviceConfig) (acc : Dict Key (Protocol × DeviceConfig)) (params : ConnParams) :
    PyM W (Dict Key (Protocol × DeviceConfig)) := do
  let config := { base with connectionType := params }
  let p ← create config true
  match p, classFromFamily params.family.value params.https true with
  | some p, some cls => pure (acc.set (p.proto, p.transport, cls, params.https) (p, config))
  | _, _ => pure acc

/-- `candidates` (discover.py:641-677).  The transports replace a missing timeout by the default, a change in the
configuration that is left out. -/
def candidates (base : DeviceConfig) (order : List Family) : PyM W (Dict Key (Protocol × DeviceConfig)) :=
  PyM.foldM (addCandidate base) [] (paramsTried order)

/-- `if on_attempt: on_attempt(ca, success)` (discover.py:689-695). -/
def onAttempt (wanted : Bool) (p : Protocol) (success : Bool) : PyM W Unit :=
  if wanted then do
    let w ← PyM.getS
    log (.attempt p.id success)
    PyM.lift (env.callback w)
  else pure ()

/-- The `try`, `except Exception` and `else` of one attempt (discover.py:679-697). -/
def tryOne (wanted : Bool) (p : Protocol) (config : DeviceConfig) : PyM W (Option Device) := fun w =>
  match connectWith env config p w with
  | (.ok dev, w') => (do onAttempt env wanted p true; pure (some dev) : PyM W (Option Device)) w'
  | (.error e, w') =>
    if e.isException then (do onAttempt env wanted p false; pure none : PyM W (Option Device)) w' else (.error e, w')

/-- The loop (discover.py:678-700). -/
def tryEach (wanted : Bool) : List (Key × Protocol × DeviceConfig) → PyM W (Option Device)
  | [] => pure none
  | (_, p, config) :: rest => do
    let r ← PyM.tryFinally (tryOne env wanted p config) (close env p.id)
    match r with
    | some dev => pure (some dev)
    | none => tryEach wanted rest

/-- `try_connect_all` (discover.py:610-700), given the configuration with host, timeout, port, credentials and HTTP client
and the order in which the set of families is iterated. -/
def tryConnectAll (base : DeviceConfig) (wanted : Bool) (order : List Family) : PyM W (Option Device) := do
  let cs ← candidates base order
  tryEach env wanted cs
end

end Kasa.Connect
