import Verif.Model.Firmware
/-!
# Specification: how a firmware update goes
-/

namespace Kasa.FirmwareSpec
open Firmware

/-- The answers about the state of the download, in order. -/
def polls : List Event → List (Except Exc State)
  | [] => []
  | .polled r :: l => r :: polls l
  | _ :: l => polls l

/-- What the caller's `progress_cb` was given, in order. -/
def progress : List Event → List State
  | [] => []
  | .progress s :: l => s :: progress l
  | _ :: l => progress l

/-- How often the device was told to download and install. -/
def downloads : List Event → Nat
  | [] => 0
  | .download :: l => downloads l + 1
  | _ :: l => downloads l

/-- The time spent sleeping. -/
def slept : List Event → Nat
  | [] => 0
  | .slept ms :: l => ms + slept l
  | _ :: l => slept l

/-- The states among the answers. -/
def states : List (Except Exc State) → List State
  | [] => []
  | .ok s :: l => s :: states l
  | .error _ :: l => states l

/-- An answer that does not end the update: the device is busy, or does not answer (it may be restarting). -/
def Busy : Except Exc State → Prop
  | .ok s => 0 < s.status
  | .error e => e.isException = true

/-- How the waiting ends: with the first state that is idle (0) or an error (negative); or when the time is up; or when the
task is cancelled. -/
def Ends (answers : List (Except Exc State)) (result : Except Exc State) : Prop :=
  (∃ before st, answers = before ++ [.ok st] ∧ (∀ x ∈ before, Busy x) ∧ st.status ≤ 0 ∧ result = .ok st) ∨
  ((∀ x ∈ answers, Busy x) ∧ result = .error (.other "TimeoutError")) ∨
  (∃ before e, answers = before ++ [.error e] ∧ (∀ x ∈ before, Busy x) ∧ e.isException = false ∧ result = .error e)

end Kasa.FirmwareSpec
