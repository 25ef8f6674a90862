import Verif.Spec.ReadBack
import Verif.Spec.LegacyEndToEnd
import Verif.Model.IotDevice
import Verif.Spec.LightReading
import Verif.Model.LightCalls
/-!
# Specification: a light that is set over an unreliable network
-/

namespace Kasa.LightNetwork
open EndToEnd hiding Op
open Lights LightReading LightReadingSpec LightCalls
open Smart (Request Entry)
open SmartSpec (Answer requestFor)

/-- What a light reports of itself. -/
def smartKeys : List String := ["device_on", "brightness", "hue", "saturation", "color_temp"]

/-- Of the keys `keys`, `after` has those in `params` as there, the others as in `before`. -/
def Stored (keys : List String) (params before after : Dict String Json) : Prop :=
  ∀ k ∈ keys, Dict.get? after k = (Dict.get? params k).or (Dict.get? before k)

/-- The program `p` is that of a light: it keeps `info`, reports it when asked for `get_device_info`, and stores the parameters of
`set_device_info` if they are ones that it takes.  The requests `Rs` read, and are answered as `ans` says. -/
structure IsLight {α : Type} (p : Program α) (uuid : String) (Rs : Request → Prop) (ans : α → Request → Answer) (info : α → Dict String Json)
    (Takes : Dict String Json → Prop) : Prop where
  reads : Reads p uuid Rs ans
  report : ∀ a, ans a (requestFor "get_device_info" .null) = (0, some (.obj (info a)))
  stores : ∀ params, Takes params →
    ∃ f v, Sets p uuid (requestFor "set_device_info" (.obj params)) f v ∧ ∀ a, Stored smartKeys params (info a) (info (f a))

/-- What a caller does: an operation on the light, or a query that reads, with a retry count. -/
inductive Step where
  | set (op : Op)
  | read (requests : Dict String Json) (retries : Int)

section
variable {σ : Type} (t : Smart.Transport σ) (l : Light)

/-- The steps one after the other: the operations with their outcomes, and the protocol object in the end. -/
def run : List Step → Smart.St σ → List (Op × Except Exc (Dict String Entry)) × Smart.St σ
  | [], s => ([], s)
  | .set op :: steps, s =>
    let r := perform t (smartSend l op) s
    let rest := run steps r.2
    ((op, r.1) :: rest.1, rest.2)
  | .read requests retries :: steps, s => run steps (Smart.query t (.dict requests) retries s).2

end

/-- The operations, with these outcomes, take the light from one state to the other: an operation that returned was carried out; one that
raised was not, or it was, but only if its arguments are accepted; and nothing else happened.  `apply` is what an operation does. -/
inductive Explains {β : Type} (accepts : Op → Prop) (apply : Lamp → Op → Lamp) : Lamp → List (Op × Except Exc β) → Lamp → Prop where
  | nil (L) : Explains accepts apply L [] L
  | returned {L M op r rest} : Explains accepts apply (apply L op) rest M → Explains accepts apply L ((op, .ok r) :: rest) M
  | failed {L M op e rest} : Explains accepts apply L rest M → Explains accepts apply L ((op, .error e) :: rest) M
  | unanswered {L M op e rest} : accepts op → Explains accepts apply (apply L op) rest M → Explains accepts apply L ((op, .error e) :: rest) M

/-- The light object accepts the arguments of the operation. -/
def Accepts (send : Op → Except Exc Command) (op : Op) : Prop := ∃ c, send op = .ok c

/-- The properties of the light object read `info` as the light `L`: `light.state`, `device.is_on`, `light.brightness`, `light.hsv`,
`light.color_temp`. -/
structure ShowsLight (l : Light) (info : Info) (L : Lamp) : Prop where
  state : ∀ r, smartHook l r info = .ok (shown l.hasBrightness l.hasColor l.tempRange.isSome L).toState
  on : smartIsOn info = L.on
  brightness : ∀ r, l.hasBrightness = true → smartBrightnessOf l r info = .ok (.int L.brightness)
  hsv : l.hasColor = true → smartHsvOf l info = .ok (.int L.hue, .int L.saturation, .int L.brightness)
  colorTemp : l.tempRange.isSome = true → smartColorTempOf l info = .ok (.int L.colorTemp)

/-- What `info` must show after the operation, whatever was before. -/
def SeenAs (l : Light) (op : Op) (info : Info) : Prop :=
  match op with
  | .brightness x _ => if x = 0 then smartIsOn info = false else l.hasBrightness = true → smartBrightnessOf l (.error .kasa) info = .ok (.int x)
  | .hsv hue sat value _ => l.hasColor = true → ∃ b, smartHsvOf l info = .ok (.int hue, .int sat, .int b) ∧ ∀ x, value = some x → b = x
  | .colorTemp x _ _ => l.tempRange.isSome = true → smartColorTempOf l info = .ok (.int x)
  | .state s => smartIsOn info = (s.lightOn.getD true && s.brightness != some 0)
  | .switch on _ => smartIsOn info = on

section
variable {σ α : Type} (t : Smart.Transport σ) (p : Program α) (uuid : String) (state : σ → α) (s0 : Smart.St σ)

/-- A light with no effect active, which is `L0` at first, is set, to what the device takes, and read, in any way over this transport.  Then at any time it is a light `L`
that the operations and their outcomes explain, and this is what every reading shows:
* a query that asks for `get_device_info` and returns;
* an update of a device object (not its first) that asks for it, unless the device object then holds the marker for a failed query, with which
reading `_info` fails. -/
def LightShows : Prop :=
  ∀ (Rs : Request → Prop) (ans : α → Request → Answer) (info : α → Dict String Json) (Takes : Dict String Json → Prop),
  IsLight p uuid Rs ans info Takes →
  ∀ (l : Light), l.effect = none → ∀ (L0 : Lamp), SmartHolds (ofMembers (info (state s0.world))) L0 →
  ∀ (steps : List Step), (∀ requests rc, .read requests rc ∈ steps → ReadQuery Rs requests) →
  (∀ op, .set op ∈ steps → ∀ c, smartSend l op = .ok c → Takes (toMembers c.params)) →
  let after := run t l steps s0
  ∃ L, Explains (Accepts (smartSend l)) Lamp.smart L0 after.1 L ∧
    (∀ requests rc r, ReadQuery Rs requests → ("get_device_info", .null) ∈ requests → (Smart.query t (.dict requests) rc after.2).1 = .ok r →
      (∀ i, infoOf r = .ok i → ShowsLight l i L) ∧ (after.2.batchSize ≠ 1 → ∃ i, infoOf r = .ok i)) ∧
    ∀ (env : SmartDevice.Env) (at' : Nat → Smart.St σ) (w : SmartDevice.World) (kids : Bool) (u : Rat) (rc : Int), w.dev.time = some u →
      w.dev.id = none → Dict.WF w.dev.mods → ReadQuery Rs (SmartDevice.requestOf false (env.clock w.net.ticks) w.dev) →
      ("get_device_info", .null) ∈ SmartDevice.requestOf false (env.clock w.net.ticks) w.dev →
      Uninterrupted env w.net.asked.length (SmartDevice.requestOf false (env.clock w.net.ticks) w.dev) →
      let dev := (SmartDevice.update env true kids w).2
      Behind t env rc at' dev.net.asked → at' w.net.asked.length = after.2 → after.2.batchSize ≠ 1 →
      (∃ i, infoOf dev.dev.last = .ok i ∧ ShowsLight l i L) ∨ Dict.get? dev.dev.last "get_device_info" = some (.error (-100001))

end

/-! ## Legacy bulbs -/

/-- What a legacy bulb reports as its `light_state`. -/
def reported (d : Dict String Json) : Json :=
  if onOff (Dict.get? (ofMembers d) "on_off") then .obj d else .obj [("on_off", .num 0), ("dft_on_state", .obj d)]

/-- What a bulb holds. -/
def bulbKeys : List String := ["on_off", "brightness", "hue", "saturation", "color_temp"]

/-- The program `p` is that of a legacy bulb: it keeps `info`, stores the parameters of the bulb's own command if they are ones that it takes,
and reports it in `light_state` when asked for the system information, as all the requests `Rs` do, which only read. -/
structure IsBulb {α : Type} (p : Program α) (b : Bulb) (Rs : Json → Prop) (info : α → Dict String Json) (Takes : Dict String Json → Prop) :
    Prop where
  still : ∀ j, Rs j → ∀ a, (p.run j a).2 = a
  report : ∀ j, Rs j → ∀ a, ((((p.run j a).1.get? "system").bind (·.get? "get_sysinfo")).bind (·.get? "light_state")) = some (reported (info a))
  stores : ∀ params, Takes params → ∀ a,
    Stored bulbKeys params (info a) (info (p.run (Iot.createRequest b.service b.method (some (.obj params)) none) a).2)
  idem : ∀ params, Takes params → ∀ a,
    let j := Iot.createRequest b.service b.method (some (.obj params)) none
    (p.run j (p.run j a).2).2 = (p.run j a).2

/-- What a caller does: an operation on the light, a query that reads, or a close. -/
inductive BulbStep where
  | set (op : Op)
  | read (j : Json) (retries : Nat)
  | close

section
variable {α : Type} (lib lib' : JsonText.Lib) (p : Program α) (x : LegacyEndToEnd.Chance) (b : Bulb)

/-- A method of the light, or of the bulb, that sends the command it computes, or raises before; with the three retries of a query. -/
def bulbPerform (send : Except Exc Command) (w : LegacyEndToEnd.World α) : Except Exc Json × LegacyEndToEnd.World α :=
  match send with
  | .error e => (.error e, w)
  | .ok c =>
    let arg := some (Json.obj (toMembers c.params))
    let out := LegacyEndToEnd.query lib lib' p x (Iot.createRequest c.target c.method arg none) (3 : Nat) w
    (Iot.queryHelper (fun _ => out.1) c.target c.method arg none, out.2)

/-- The steps one after the other. -/
def bulbRun : List BulbStep → LegacyEndToEnd.World α → List (Op × Except Exc Json) × LegacyEndToEnd.World α
  | [], w => ([], w)
  | .set op :: steps, w =>
    let r := bulbPerform lib lib' p x (bulbSend b op) w
    let rest := bulbRun steps r.2
    ((op, r.1) :: rest.1, rest.2)
  | .read j rc :: steps, w => bulbRun steps (LegacyEndToEnd.query lib lib' p x j rc w).2
  | .close :: steps, w => bulbRun steps (LegacyEndToEnd.reset w).2

end

/-- The properties of the bulb read its `light_state` as the light `L`. -/
structure ShowsBulb (b : Bulb) (light : Info) (L : Lamp) : Prop where
  state : bulbHook b none light = .ok (shown b.isDimmable b.isColor b.isVariableTemp L).toState
  on : bulbIsOn light = .ok L.on
  brightness : b.isDimmable = true → bulbBrightness b none light = .ok (.int L.brightness)
  hsv : b.isColor = true → bulbHsv b none light = .ok (.int L.hue, .int L.saturation, .int L.brightness)
  colorTemp : b.isVariableTemp = true → bulbColorTemp b light = .ok (.int L.colorTemp)

/-- `light_state` in the answer to a query that asked for the system information. -/
def lightOf (answer : Json) : Option Info :=
  match ((answer.get? "system").bind (·.get? "get_sysinfo")).bind (·.get? "light_state") with
  | some (.obj kvs) => some (ofMembers kvs)
  | _ => none

end Kasa.LightNetwork
