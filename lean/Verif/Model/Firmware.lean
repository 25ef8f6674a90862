import Verif.Py.Monad
/-!
# Updating the firmware of a SMART device (smart/modules/firmware.py)

The device is an environment with an arbitrary state: what it answers, and how long it takes.  Times are in milliseconds.
Left out: logging, `current_firmware` (which only goes into the log), the fields of the answers that play no role, and the
conversion of an answer by mashumaro, which is part of the environment: an answer that cannot be converted is an exception.
-/

namespace Kasa.Firmware
open PyM

/-- `UpdateInfo` (firmware.py:41-61). -/
structure Info where
  status : Int
  needsUpgrade : Bool
  version : Option String
  deriving DecidableEq

/-- `update_available` (firmware.py:58-61). -/
def Info.updateAvailable (i : Info) : Bool := i.status != 0

/-- `DownloadState` (firmware.py:27-38). -/
structure State where
  status : Int
  progress : Int
  rebootTime : Int
  upgradeTime : Int
  autoUpgrade : Bool
  deriving DecidableEq

/-- The device: `get_latest_fw`, `fw_download`, and `get_fw_download_state` with the time it takes. -/
structure Env (σ : Type) where
  latest : σ → Except Exc Info × σ
  download : σ → Except Exc Unit × σ
  poll : σ → (Nat × Except Exc State) × σ

/-- What an observer sees. -/
inductive Event where
  | download
  | polled (r : Except Exc State)
  /-- `progress_cb(state)` was started. -/
  | progress (s : State)
  | slept (ms : Nat)

/-- The device, `_firmware_update_info`, and what happened so far. -/
structure St (σ : Type) where
  world : σ
  info : Option Info := none
  log : List Event := []

/-- Something happened. -/
def St.add {σ : Type} (s : St σ) (e : Event) : St σ := { s with log := s.log ++ [e] }

section
variable {σ : Type} (env : Env σ)

/-- `check_latest_firmware` (firmware.py:140-149): every `Exception` is logged. -/
def check : PyM (St σ) (Option Info) := fun s =>
  match env.latest s.world with
  | (.ok i, w) => (.ok (some i), { s with world := w, info := some i })
  | (.error e, w) =>
    if e.isException then (.ok none, { s with world := w, info := none })
    else (.error e, { s with world := w })

/-- `update_available` (firmware.py:168-173). -/
def available (cloud : Bool) (info : Option Info) : Option Bool :=
  match info with
  | none => none
  | some i => if cloud then some i.updateAvailable else none

/-- `self.call("fw_download")` (firmware.py:198). -/
def download : PyM (St σ) Unit := fun s =>
  ((env.download s.world).1, { s with world := (env.download s.world).2 }.add .download)

/-- `asyncio_timeout` expires (firmware.py:201). -/
def expire {α : Type} : PyM (St σ) α := raise (.other "TimeoutError")

/-- The loop (firmware.py:202-235), with `left` milliseconds until the timeout.  Whatever would not end in time is
cancelled.  `callback`: is there a `progress_cb`? -/
def loop (callback : Bool) (left : Nat) (s : St σ) : Except Exc State × St σ :=
  if left ≤ 500 then expire s
  else
    let s := s.add (.slept 500)
    let answer := env.poll s.world
    let s := { s with world := answer.2 }
    if left - 500 ≤ answer.1.1 then expire s
    else
      let left' := left - 500 - answer.1.1
      let s := s.add (.polled answer.1.2)
      match answer.1.2 with
      | .error e => if e.isException then loop callback left' s else (.error e, s)
      | .ok state =>
        let s := if callback then s.add (.progress state) else s
        if state.status = 0 then (.ok state, s)
        else if state.status = 2 then loop callback left' s
        else if state.status = 3 then
          if left' ≤ state.upgradeTime.toNat * 1000 then expire s
          else loop callback (left' - state.upgradeTime.toNat * 1000) (s.add (.slept (state.upgradeTime.toNat * 1000)))
        else if state.status < 0 then (.ok state, s)
        else loop callback left' s
termination_by left

/-- `update` (firmware.py:181-237). -/
def update (cloud callback : Bool) : PyM (St σ) State := do
  let s ← getS
  match s.info with
  | none => raise .kasa
  | some _ =>
    if available cloud s.info = some true then do
      download env
      loop env callback 300000
    else raise .kasa

end
end Kasa.Firmware
