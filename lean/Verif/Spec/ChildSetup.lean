import Verif.Model.ChildSetup
/-!
# Specification: a hub that pairs what it is told to
-/

namespace Kasa.ChildSetupSpec
open ChildSetup

/-- The text under "device_id". -/
def idOf (d : Json) : Option String :=
  match d.get? "device_id" with
  | some (.str id) => some id
  | _ => none

/-- The ids of a list of devices. -/
def ids (devices : List Json) : List String := devices.filterMap idOf

/-- `xs` without duplicates, after `old`. -/
def addAll (old : List String) : List String → List String
  | [] => old
  | x :: xs => addAll (if x ∈ old then old else old ++ [x]) xs

/-- What is around the hub, and what it and the library make of it. -/
structure Place where
  /-- What a scan for these categories hears within so many seconds. -/
  hears : Json → Nat → List Json
  /-- Does the hub accept the device? -/
  accepts : String → Bool
  /-- Does the library support the device? -/
  knows : String → Bool

/-- The hub: what it is paired with, and how long it has been scanning. -/
structure Hub where
  paired : List String
  scanning : Option Nat

/-- What a request is about: cameras wrap it. -/
def body (k : Kind) (params : Json) : Json :=
  match k with
  | .hub => params
  | .camera => (params.get? "childControl").getD .null

/-- The list of a request. -/
def listed (k : Kind) (key : String) (params : Json) : List Json :=
  match (body k params).get? key with
  | some (.arr xs) => xs
  | _ => []

inductive Verb where
  | start | scan | add | remove
  deriving DecidableEq

/-- What the methods of both kinds mean. -/
def verb : Kind → String → Option Verb
  | .hub, "begin_scanning_child_device" => some .start
  | .hub, "get_scan_child_device_list" => some .scan
  | .hub, "add_child_device_list" => some .add
  | .hub, "remove_child_device_list" => some .remove
  | .camera, "startScanChildDevice" => some .start
  | .camera, "getScanChildDeviceList" => some .scan
  | .camera, "addScanChildDeviceList" => some .add
  | .camera, "removeChildDeviceList" => some .remove
  | _, _ => none

/-- The categories a request names. -/
def categories (k : Kind) (params : Json) : Json :=
  ((body k params).get? (match k with | .hub => "scan_list" | .camera => "category")).getD .null

/-- The hub answers a request; the answer has the method as its key. -/
def Hub.answer (k : Kind) (p : Place) (method : String) (params : Json) (h : Hub) : Except Exc Json × Hub :=
  match verb k method with
  | some .start => (.ok (.obj [(method, .obj [])]), { h with scanning := some 0 })
  | some .scan =>
    (.ok (.obj [(method, .obj [("child_device_list",
      .arr (match h.scanning with | some n => p.hears (categories k params) n | none => []))])]), h)
  | some .add =>
    (.ok (.obj [(method, .obj [])]),
      { paired := addAll h.paired ((ids (listed k "child_device_list" params)).filter p.accepts), scanning := none })
  | some .remove =>
    (.ok (.obj [(method, .obj [])]),
      { h with paired := h.paired.filter fun x => !(ids (listed k "child_device_list" params)).contains x })
  | none => (.error (.device (some (-1))), h)

/-- A hub as an environment: it hears more the longer one waits, and an update gives the children the library supports. -/
def hubEnv (k : Kind) (p : Place) : Env Hub where
  call := Hub.answer k p
  sleep n h := { h with scanning := h.scanning.map (· + n) }
  update h := (.ok (h.paired.filter p.knows), h)

/-- A device as a scan reports it. -/
def Entry (d : Json) : Prop := ∃ id model, d.get? "device_id" = some (.str id) ∧ d.get? "device_model" = some model

/-- What pairing does, one after the other, when the scan answers `detected`. -/
def plan (k : Kind) (cats : Json) (seconds : Nat) (detected : Json) : List Ev :=
  match k with
  | .hub =>
    [.call "begin_scanning_child_device" .null, .sleep seconds,
      .call "get_scan_child_device_list" (.obj [("scan_list", cats)]), .call "add_child_device_list" detected, .update]
  | .camera =>
    [.call "startScanChildDevice" (.obj [("childControl", .obj [("category", cats)])]), .sleep seconds,
      .call "getScanChildDeviceList" (.obj [("childControl", .obj [("category", cats)])]),
      .call "addScanChildDeviceList" (.obj [("childControl",
        .obj [("child_device_list", (detected.get? "child_device_list").getD .null)])]), .update]

/-- The answer of the scan, when a start, a wait and a scan are made in the world `w`. -/
def scanned {σ : Type} (env : Env σ) (k : Kind) (cats : Json) (seconds : Nat) (w : σ) : Except Exc Json :=
  match k with
  | .hub =>
    (env.call "get_scan_child_device_list" (.obj [("scan_list", cats)])
      (env.sleep seconds (env.call "begin_scanning_child_device" .null w).2)).1
  | .camera =>
    (env.call "getScanChildDeviceList" (.obj [("childControl", .obj [("category", cats)])])
      (env.sleep seconds (env.call "startScanChildDevice" (.obj [("childControl", .obj [("category", cats)])]) w).2)).1

/-- The method whose answer holds what was found. -/
def scanKey : Kind → String
  | .hub => "get_scan_child_device_list"
  | .camera => "getScanChildDeviceList"

/-- What the user does with the hub. -/
inductive Op where
  | pair (timeout : Nat)
  | unpair (id : String)

/-- What should be paired afterwards. -/
def wanted (p : Place) (cats : Json) : List String → Op → List String
  | old, .pair t => addAll old ((ids (p.hears cats t)).filter p.accepts)
  | old, .unpair id => old.filter (· ≠ id)

/-- What the library does. -/
def run (k : Kind) (p : Place) (cats : Json) (s : St Hub) : Op → St Hub
  | .pair t => (pair (hubEnv k p) k cats t s).2
  | .unpair id => (unpair (hubEnv k p) k id s).2

end Kasa.ChildSetupSpec
