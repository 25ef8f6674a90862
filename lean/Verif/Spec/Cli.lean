import Verif.Model.Cli
/-!
# Specification of the command line tool

What a user expects of `kasa [options] [command]`, in terms of what a run did (its events) and its exit status.
-/

namespace Kasa.Cli.Spec

open Config

/-- The device an event deals with. -/
def device : Event → Option Handle
  | .connect h | .update h | .state h | .disconnect h => some h
  | .command _ h => h
  | _ => none

/-- The event is the run of a subcommand. -/
def IsCommand : Event → Prop
  | .command _ _ => True
  | _ => False

/-- The event reaches out to the network, or runs something. -/
def IsAction : Event → Prop
  | .text | .document => False
  | _ => True

/-- The option was given with a value. -/
def Given (x : Option String) : Prop := ∃ s, x = some s ∧ s ≠ ""

/-- The options contradict each other, or do not say which device is meant. -/
def Contradictory (o : Options) : Prop :=
  (o.target ≠ "255.255.255.255" ∧ Given o.host) ∨
  (o.subcommand ≠ some "discover" ∧
    ((o.alias ≠ none ∧ o.host ≠ none) ∨ (Given o.username ∧ ¬ Given o.password) ∨
     (Given o.password ∧ ¬ Given o.username) ∨ (Given o.subcommand ∧ o.host = none ∧ o.alias = none)))

/-- The credentials the user gave. -/
def Credentials (o : Options) (c : Option Config.Credentials) : Prop :=
  match c with
  | some c => o.username = some c.username ∧ o.password = some c.password
  | none => ¬ Given o.username ∨ ¬ Given o.password

/-- The class of `--type`. -/
def classes : List (String × String) :=
  [("plug", "IotPlug"), ("switch", "IotWallSwitch"), ("bulb", "IotBulb"), ("dimmer", "IotDimmer"), ("strip", "IotStrip"),
    ("lightstrip", "IotLightStrip")]

/-- The device is what the options other than the credentials say it is: its port and timeout, the class of a legacy device,
and how to connect to a newer one. -/
structure Settings (o : Options) (h : Handle) : Prop where
  port : (∀ a, h.source ≠ .named a) → h.port = o.port ∧ h.timeout = some o.timeout
  legacy : ∀ c, h.source = .legacy c → ∃ t, o.type = some t ∧ (t ∈ classes.map Prod.fst → (t, c) ∈ classes)
  hash : ∀ p, h.source = .connected p → h.hash = o.hash
  camera : ∀ p, h.source = .connected p → o.type = some "camera" →
    p.family.value = "SMART.IPCAMERA" ∧ p.encryption.value = "AES" ∧ p.loginVersion = some 2 ∧ p.https = true
  smart : ∀ p, h.source = .connected p → o.type ≠ some "camera" →
    p.family.value = o.family ∧ p.loginVersion = some o.loginVersion ∧ p.https = o.https ∧
      ((∃ e, o.encryptType = some e ∧ e ≠ "" ∧ p.encryption.value = e) ∨ (¬ Given o.encryptType ∧ p.encryption.value = "KLAP"))

/-- The user lets the tool find the device itself. -/
def Automatic (o : Options) : Prop := o.type = none ∧ ¬ Given o.encryptType

/-- During the run so far the device was updated with success, was connected to (which updates it), or was found by its
name (which updates it, too). -/
def Ready (env : Surroundings) (o : Options) (h : Handle) (log : List Event) : Prop :=
  (∃ n, log[n]? = some (.update h) ∧ env.update n = .ok ()) ∨
  (∃ n, log[n]? = some (.connect h) ∧ env.connect n = .ok ()) ∨
  (∃ n a, log[n]? = some (.find a o.target h.credentials) ∧ o.alias = some a ∧ env.find n = .ok h.host)

/-- The first command of the run, and what preceded and followed it. -/
structure Ran (log : List Event) (name : String) (h : Option Handle) (before after : List Event) : Prop where
  split : log = before ++ .command name h :: after
  first : ∀ e ∈ before, ¬ IsCommand e
  last : ∀ e ∈ after, ¬ IsCommand e

/-- What a subcommand may do without the run having failed. -/
def Fine : Except Stop Unit → Prop
  | .ok _ => True
  | .error (.exit c) => c = 0
  | _ => False

end Kasa.Cli.Spec
