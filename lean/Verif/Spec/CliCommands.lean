import Verif.Model.CliCommands
/-!
# Specification of the commands of the command line tool
-/

namespace Kasa.CliCommand.Spec

open Cli (Stop)

/-- The call only reads from the device. -/
def Reads : Call → Bool
  | .update | .getTurnOnBehavior | .monthlyEnergy _ | .dailyEnergy _ _ | .monthlyUsage _ | .dailyUsage _ _ | .wifiScan => true
  | _ => false

/-- The calls made, in order. -/
def calls : List Act → List Call
  | [] => []
  | .call c :: rest => c :: calls rest
  | _ :: rest => calls rest

/-- The calls made which change the device, in order. -/
def changes (l : List Act) : List Call := (calls l).filter fun c => !Reads c

/-- A new value for something which has a value. -/
def override (new old : Option Int) : Option Int :=
  match new, old with
  | some n, some _ => some n
  | _, old => old

/-- The setting of the device a command asks for, or nothing if it is a command which shows something (or is not
complete). -/
def Wanted (a : Answers) (f : Facts) : Command → Option Call
  | .on t => some (.turnOn t)
  | .off t => some (.turnOff t)
  | .toggle t => some (if f.isOn then .turnOff t else .turnOn t)
  | .led (some v) => some (.setLed v)
  | .alias (some v) => some (.setAlias v)
  | .reboot d => some (.reboot d)
  | .factoryReset => some .factoryReset
  | .updateCredentials u p => some (.updateCredentials u p)
  | .brightness (some v) t => some (.setBrightness v t)
  | .temperature (some v) t => some (.setColorTemp v t)
  | .effect (some e) => some (.setEffect e)
  | .hsv h (some s) (some v) t => some (.setHsv h s v t)
  | .presetsModify i b h s t =>
    match f.presets with
    | some presets =>
      if 0 ≤ i then
        match presets[i.toNat]? with
        | some (name, p) => some (.savePreset name ⟨override b p.brightness, override h p.hue, override s p.saturation,
            override t p.colorTemp⟩)
        | none => none
      else none
    | none => none
  | .turnOnBehavior (some "soft") l p =>
    some (.setTurnOnBehavior (if l then none else p.or f.behavior.1) f.behavior.2)
  | .turnOnBehavior (some _) l p =>
    some (.setTurnOnBehavior f.behavior.1 (if l then none else p.or f.behavior.2))
  | .timeSync z _ => some (.setTimeNow (if z = some "" then none else z))
  | .timeSet d z _ => some (.setTime d (if z = some "" then none else z))
  | .energy _ _ true => some .eraseEnergy
  | .usage _ _ true => some .eraseUsage
  | .scheduleDelete id => some (.deleteRule id)
  | .wifiJoin s p k => some (.wifiJoin s p k)
  | .hubPair t => some (.pair t)
  | .hubUnpair id => some (.unpair id)
  | .consumablesReset id => some (.resetConsumable id)
  | .feature (some n) (some v) => if n = "" then none else (a.literal v).map fun j => .setFeature n (some j)
  | .feature (some n) none => if n ≠ "" ∧ f.features.get? n = some true then some (.setFeature n none) else none
  | _ => none

/-- The device has what the command is about. -/
def Supported (f : Facts) : Command → Bool
  | .led _ => f.hasLed
  | .updateCredentials _ _ => f.isSmart
  | .logs => f.hasLogs
  | .brightness _ _ => f.hasBrightness
  | .temperature _ _ => f.hasColorTemp
  | .hsv _ _ _ _ => f.hasHsv
  | .effect none => f.effects.isSome
  | .effect (some e) => (f.effects.getD []).contains e
  | .presetsList => f.presets.isSome
  | .presetsModify i _ _ _ _ => decide (i < ((f.presets.getD []).length : Int))
  | .turnOnBehavior _ _ _ => f.isIotBulb
  | .timeSync _ _ | .timeSet _ _ _ => f.hasTime
  | .energy y m e => f.hasEnergy && (f.periodicStats || !(y.isSome || m.isSome || e))
  | .usage _ _ _ => f.hasUsage
  | .scheduleList t => (f.rules.get? t).isSome
  | .scheduleDelete id => ((f.rules.get? "schedule").getD []).contains id
  | .hubList | .hubSupported | .hubPair _ => f.isHub && f.hasChildSetup
  | .hubUnpair id => f.isHub && f.hasChildSetup && f.children.contains id
  | .records | .recordsList => f.hasRecords
  | .consumables => f.consumables.isSome
  | .consumablesReset id => (f.consumables.getD []).contains id
  | .feature (some n) _ => n = "" || (f.features.get? n).isSome
  | _ => true

/-- The cases in which a command does something else than it was asked to: presets named by a negative index, the
temperature of a preset, and setting the time of a device without a time module. -/
def Odd (f : Facts) : Command → Prop
  | .presetsModify i _ _ _ t => i < 0 ∨ t ≠ none
  | .timeSync _ _ | .timeSet _ _ _ => f.hasTime = false
  | _ => False

/-- A time zone given by the user is one: the standard library and (for legacy devices, unless the question is skipped) the device know it. -/
def GoodZone (a : Answers) (f : Facts) (z : Option String) (skipConfirm : Bool) : Prop :=
  z = none ∨ z = some "" ∨ ∃ n, z = some n ∧ n ∈ a.zones ∧ (f.isIot = true → skipConfirm = false → a.matching n ≠ [])

/-- The arguments of a command make sense, and the device can do what is asked for. -/
def Sensible (a : Answers) (f : Facts) : Command → Prop
  | .hsv h s v _ => (h = none ∧ s = none ∧ v = none) ∨ (s.isSome = true ∧ v.isSome = true)
  | .presetsModify _ b h s t => b.isSome = true ∨ h.isSome = true ∨ s.isSome = true ∨ t.isSome = true
  | .timeSync z s => GoodZone a f z s ∧ ∀ n, z = some n → n ≠ "" → a.localOffset n = true
  | .timeSet d z s => GoodZone a f z s ∧ a.validDate d = true
  | .hubUnpair _ => a.stillThere = false
  | .feature (some n) (some v) => n = "" ∨ (a.literal v).isSome = true
  | _ => True

/-- The exit status is zero. -/
def Succeeds (r : Except Stop Unit) : Bool := Cli.status r = 0

end Kasa.CliCommand.Spec
