import Verif.Lemmas.DiscoverEnds
/-!
# C88: discovery waits for answers and callbacks, and ends

`run d o packets {} evs` is the state of a call of `Discover.discover` after the events `evs`, in any order: datagrams, steps of the tasks,
ends of callbacks, and cancellations.
-/

namespace Kasa.DiscoverTasks
open Discover

section
variable (d : Deps) (o : Options) (packets : Int)

/-- A call that returns gives exactly the devices recognised in what arrived before it ended. -/
theorem C88_result (evs : List Ev) (devs : Dict String Dev) (hr : (run d o packets {} evs).main = .returned devs) :
    devs = (after d o (arrived d o packets {} evs)).discovered := by
  have h1 : ∀ devs, (run d o packets {} evs).main = .returned devs → devs = (run d o packets {} evs).st.discovered :=
    run_inv d o packets (fun s => ∀ devs, s.main = .returned devs → devs = s.st.discovered)
      (fun s ev h devs hm => returned_step d o packets s ev h devs hm) (fun _ h => by cases h) evs
  obtain ⟨c, h2⟩ := st_arrived d o packets evs {} St.init false rfl
  rw [h1 _ hr, h2]
  rfl

/-- A call that returns, of which the target did not answer (as with a broadcast) and which was not cancelled, has sent all its packets and
slept after each of them. -/
theorem C88_full_time (evs : List Ev) (devs : Dict String Dev) (hc : ∀ ev ∈ evs, ev ≠ .cancelCaller)
    (hr : (run d o packets {} evs).main = .returned devs) (ht : o.target ∉ (run d o packets {} evs).st.seen) :
    packets ≠ 0 ∧ (run d o packets {} evs).sent = packets.toNat ∧ (run d o packets {} evs).slept = packets.toNat := by
  have hf := full_run d o packets {} (inv_init o) (full_init packets) evs hc ht
  have := hf.count
  unfold Count at this
  rw [hf.returned _ hr] at this
  exact ⟨this.2.2, this.1, this.2.1⟩

/-- When the call returns, the callback of every device found while it was searching has ended, and without an exception. -/
theorem C88_callbacks (before rest : List Ev) (devs : Dict String Dev) (ip : String) (ho : o.onDiscovered = true)
    (hs : Searching (run d o packets {} before)) (hd : ip ∈ (run d o packets {} before).st.discovered.keys)
    (hr : (run d o packets {} (before ++ rest)).main = .returned devs) :
    (ip, some (.ok ())) ∈ (run d o packets {} (before ++ rest)).callbacks := by
  rw [run_append] at hr ⊢
  have ha := run_inv d o packets (Awaited ip) (fun s ev h => awaited_step d o packets ip s ev h)
    (awaited_of ip _ ((inv_run d o packets before).called ho ip hd) hs) rest
  have := ha.2
  rw [hr] at this
  exact this

/-- No host has two callbacks. -/
theorem C88_one_callback (evs : List Ev) : ((run d o packets {} evs).callbacks.map Prod.fst).Nodup := (inv_run d o packets evs).once

/-- A call that is cancelled does not return, unless the target answers and the call was still searching. -/
theorem C88_cancel (before rest : List Ev) (hn : (run d o packets {} before).main.ended = false)
    (ht : (run d o packets {} before).main = .searching → o.target ∉ (run d o packets {} (before ++ .cancelCaller :: rest)).st.seen)
    (devs : Dict String Dev) : (run d o packets {} (before ++ .cancelCaller :: rest)).main ≠ .returned devs := by
  rw [run_append] at ht ⊢
  have hm : (step d o packets (run d o packets {} before) .cancelCaller).main = .searching → (run d o packets {} before).main = .searching := by
    intro h
    obtain ⟨m, mc, c, h1, h2⟩ := moved d o packets (run d o packets {} before) .cancelCaller rfl
    rw [h1] at h
    dsimp only at h
    cases h2 with
    | same _ _ => exact h
    | fails _ _ _ hf => rw [h] at hf; cases hf
    | closes _ _ hf => rw [h] at hf; cases hf
    | cancels hm => exact hm
    | cancelsGather _ hm => exact h
    | cancelled _ _ hm => cases h
  have hd := doomed_run d o packets rest _ (doomed_cancel d o packets _ hn) (inv_step d o packets (inv_run d o packets before) .cancelCaller)
    (fun h => ht (hm h))
  intro hr
  change Doomed (run d o packets (run d o packets {} before) (.cancelCaller :: rest)) at hd
  rcases hd with h | ⟨h, -⟩ | ⟨_, _, h, -⟩ <;> rw [hr] at h <;> cases h

/-- A call that is cancelled while searching sends nothing more. -/
theorem C88_cancel_stops (before rest : List Ev) (hs : (run d o packets {} before).main = .searching) :
    (run d o packets {} (before ++ .cancelCaller :: rest)).sent = (run d o packets {} before).sent := by
  rw [run_append]
  have hi := inv_run d o packets before
  generalize run d o packets {} before = s at hs hi
  have hh : Hushed s.sent (step d o packets s .cancelCaller) := by
    have e : step d o packets s .cancelCaller = { s with mainCancel := true, cancel := s.cancel || s.search.active } := by
      simp only [step, cancelCaller]
      rw [hs]
    rw [e]
    refine ⟨rfl, hi.begun hs, ?_⟩
    dsimp only
    cases s.search.active
    · exact Or.inl rfl
    · exact Or.inr (by simp)
  exact (run_inv d o packets (Hushed s.sent) (fun s ev h => hushed_step d o packets _ s ev h) hh rest).1

/-- Nothing more is sent once the target has answered. -/
theorem C88_target_stops (evs more : List Ev) (ht : o.target ∈ (run d o packets {} evs).st.seen) :
    (run d o packets {} (evs ++ more)).sent = (run d o packets {} evs).sent := by
  rw [run_append]
  have := run_inv d o packets (fun s => o.target ∈ s.st.seen ∧ s.sent = (run d o packets {} evs).sent)
    (fun s ev h => ⟨seen_step d o packets s ev _ h.1, (sent_step d o packets s ev h.1).trans h.2⟩) ⟨ht, rfl⟩ more
  exact this.2

/-- On every fair schedule the call ends. -/
theorem C88_ends (evs : Nat → Ev) (hf : Fair d o packets evs) : ∃ n, (stateAt d o packets evs n).main.ended = true := ends d o packets evs hf

/-- Once it has ended, its outcome stays. -/
theorem C88_final (evs more : List Ev) (h : (run d o packets {} evs).main.ended = true) :
    (run d o packets {} (evs ++ more)).main = (run d o packets {} evs).main := by
  rw [run_append]
  generalize run d o packets {} evs = s at h
  induction more generalizing s with
  | nil => rfl
  | cons ev more ih =>
    have h1 := ended_step d o packets s ev h
    exact (ih _ (by rw [h1]; exact h)).trans h1

/-- After a call returned nothing is sent any more, and neither after one that raised once its transport has closed. -/
theorem C88_silent (evs more : List Ev) (h : (∃ devs, (run d o packets {} evs).main = .returned devs) ∨
      ∃ before, evs = before ++ [.lost] ∧ (run d o packets {} before).main.ended = true) :
    (run d o packets {} (evs ++ more)).sent = (run d o packets {} evs).sent := by
  rw [run_append]
  have hq : Quiet (run d o packets {} evs).sent (run d o packets {} evs) := by
    rcases h with ⟨devs, h⟩ | ⟨before, rfl, h⟩
    · refine ⟨by rw [h]; rfl, rfl, Or.inl ?_⟩
      have hp : Past (run d o packets {} evs) := run_inv d o packets Past (fun s ev hs => past_step d o packets s ev hs)
        ⟨fun _ _ hx => (by cases hx), fun _ hx => (by cases hx)⟩ evs
      have := hp.2 _ h
      cases hs : (run d o packets {} evs).search <;> rw [hs] at this <;> first | rfl | cases this
    · rw [run_append]
      generalize run d o packets {} before = s at h
      have : run d o packets s [.lost] = { s with cancel := s.cancel || s.search.active } := by
        show lost s = _
        unfold lost
        rw [if_pos h]
      rw [this]
      refine ⟨h, rfl, ?_⟩
      dsimp only
      cases s.search.active
      · exact Or.inl rfl
      · exact Or.inr (by simp)
  exact (run_inv d o packets (Quiet (run d o packets {} evs).sent) (fun s ev hs => quiet_step d o packets _ s ev hs) hq more).2.1

/-- A call that raises an exception of the library or is cancelled has closed all devices found, in order, provided that closing them
succeeded and was not interrupted. -/
theorem C88_closed (evs : List Ev) (hw : ClosesWell d o packets {} evs) (e : Exc) (closed : List String)
    (hr : (run d o packets {} evs).main = .raised e closed) (he : e.isKasa = true ∨ e = .base) :
    closed = (after d o (arrived d o packets {} evs)).discovered.keys := by
  have hc := closing_run d o packets evs {} (inv_init o) trivial hw
  unfold Closing at hc
  rw [hr] at hc
  obtain ⟨c, h2⟩ := st_arrived d o packets evs {} St.init false rfl
  rw [hc he, h2]
  rfl

end

/-! ## Examples, and what is not guaranteed -/

/-- A broadcast with a callback. -/
def broadcast : Options := { toyOptions with target := "255.255.255.255" }

/-- An answer of a plug. -/
def plugAt (ip : String) : Ev := .datagram ⟨[1], ip, 9999⟩

/-- One device answers in the second round, and its callback ends before the search does. -/
def usual : List Ev :=
  [.connected, .mainRuns, .searchRuns, .searchRuns, plugAt "10.0.0.1", .callbackEnds "10.0.0.1" (.ok ()), .searchRuns, .searchRuns,
    .mainRuns, .mainRuns]

def Sys.keys (s : Sys) : Option (List String) :=
  match s.main with
  | .returned devs => some devs.keys
  | _ => none

example : (run toyDeps broadcast 3 {} usual).keys = some ["10.0.0.1"] := by decide +kernel
example : (arrived toyDeps broadcast 3 {} usual).length = 1 := by decide +kernel
example : (run toyDeps broadcast 3 {} usual).sent = 3 ∧ (run toyDeps broadcast 3 {} usual).slept = 3 := by decide +kernel
example : (∀ ev ∈ usual, ev ≠ .cancelCaller) ∧ broadcast.target ∉ (run toyDeps broadcast 3 {} usual).st.seen := by
  refine ⟨?_, by decide +kernel⟩
  intro ev hev
  simp only [usual, plugAt, List.mem_cons, List.not_mem_nil, or_false] at hev
  rcases hev with h | h | h | h | h | h | h | h | h | h <;> rw [h] <;> simp
example : Searching (run toyDeps broadcast 3 {} (usual.take 5)) ∧
    "10.0.0.1" ∈ (run toyDeps broadcast 3 {} (usual.take 5)).st.discovered.keys := by
  refine ⟨Or.inr ?_, ?_⟩ <;> decide +kernel

/-- Cancelled while searching: the device found is closed. -/
def stopped : List Ev :=
  [.connected, .mainRuns, .searchRuns, plugAt "10.0.0.1", .cancelCaller, .searchRuns, .mainRuns, .closeEnds (.ok ()), .lost]

example : (run toyDeps broadcast 3 {} (stopped.take 4)).main = .searching ∧ (run toyDeps broadcast 3 {} (stopped.take 4)).sent = 1 := by
  decide +kernel
example : toyOptions.target ∈ (run toyDeps toyOptions 3 {} [.connected, .searchRuns, plugAt "10.0.0.7"]).st.seen ∧
    (run toyDeps toyOptions 3 {} [.connected, .searchRuns, plugAt "10.0.0.7"]).sent = 1 := by decide +kernel
example : (run toyDeps broadcast 3 {} stopped).main = .raised .base ["10.0.0.1"] := by decide +kernel
example : ClosesWell toyDeps broadcast 3 {} stopped := by
  refine ⟨trivial, trivial, trivial, trivial, ?_, trivial, trivial, trivial, trivial, trivial⟩
  intro e c ip l n h
  have h2 : (run toyDeps broadcast 3 {} (stopped.take 4)).main = .searching := by decide +kernel
  exact absurd (h2.symm.trans h) (by simp)

/-- Whose turn it is. -/
def turn : Nat → Ev
  | 0 => .mainRuns
  | 1 => .searchRuns
  | 2 => .callbackEnds "10.0.0.1" (.ok ())
  | _ => .closeEnds (.ok ())

/-- An endless schedule in turns. -/
def turns (n : Nat) : Ev := if n = 0 then .connected else if n = 3 then plugAt "10.0.0.1" else turn (n % 4)

theorem turns_at (k i : Nat) (hi : i < 4) : turns (4 * (k + 1) + i) = turn i := by
  unfold turns
  rw [if_neg (by omega), if_neg (by omega), show (4 * (k + 1) + i) % 4 = i by omega]

theorem turns_seen (n : Nat) (h : String) (hs : h ∈ (stateAt toyDeps broadcast 3 turns n).st.seen) : h = "10.0.0.1" := by
  induction n with
  | zero => cases hs
  | succ n ih =>
    have e : stateAt toyDeps broadcast 3 turns (n + 1) = step toyDeps broadcast 3 (stateAt toyDeps broadcast 3 turns n) (turns n) := rfl
    rw [e] at hs
    by_cases hn : n = 3
    · have ht : turns n = plugAt "10.0.0.1" := by rw [hn]; rfl
      rw [ht] at hs
      simp only [plugAt, step, datagram] at hs
      split at hs
      · exact ih hs
      · rcases received_effect toyDeps broadcast { (stateAt toyDeps broadcast 3 turns n).st with cancelled := false } ⟨[1], "10.0.0.1", 9999⟩ with hx | hx
        · rw [hx] at hs; exact ih hs
        · have h1 := hx.seen
          dsimp only at hs h1
          rw [h1, List.mem_append] at hs
          rcases hs with hs | hs
          · exact ih hs
          · simpa using hs
    · rw [step_st] at hs
      · exact ih hs
      · intro dg hdg
        unfold turns at hdg
        rw [if_neg hn] at hdg
        split at hdg
        · cases hdg
        · unfold turn at hdg
          split at hdg <;> cases hdg

example : Fair toyDeps broadcast 3 turns := by
  refine ⟨⟨0, rfl⟩, ?_, ?_, ?_, ?_⟩
  · exact fun n => ⟨4 * (n + 1) + 1, by omega, turns_at n 1 (by decide)⟩
  · exact fun n => ⟨4 * (n + 1) + 0, by omega, turns_at n 0 (by decide)⟩
  · intro host n hc
    have : host = "10.0.0.1" := turns_seen n host ((inv_at toyDeps broadcast 3 turns n).hosts host (List.mem_map.2 ⟨_, hc, rfl⟩))
    exact ⟨4 * (n + 1) + 2, _, by omega, by rw [this]; exact turns_at n 2 (by decide)⟩
  · exact fun n _ _ _ _ _ _ => ⟨4 * (n + 1) + 3, _, by omega, turns_at n 3 (by decide)⟩

/-- A device that answers while the callbacks are awaited is returned, but its callback is not awaited. -/
theorem C88_late_device : ∃ evs ip, (run toyDeps broadcast 1 {} evs).keys = some ["10.0.0.1", ip] ∧
    (ip, none) ∈ (run toyDeps broadcast 1 {} evs).callbacks :=
  ⟨[.connected, .mainRuns, .searchRuns, plugAt "10.0.0.1", .searchRuns, .mainRuns, plugAt "10.0.0.2",
    .callbackEnds "10.0.0.1" (.ok ()), .mainRuns], "10.0.0.2", by decide +kernel, by decide +kernel⟩

/-- A cancellation is lost if the target answers: the call returns although its caller was cancelled. -/
theorem C88_cancel_lost : ∃ before rest, (run toyDeps toyOptions 3 {} before).main = .searching ∧
    (run toyDeps toyOptions 3 {} (before ++ .cancelCaller :: rest)).keys = some ["10.0.0.7"] :=
  ⟨[.connected, .mainRuns, .searchRuns], [plugAt "10.0.0.7", .searchRuns, .mainRuns, .callbackEnds "10.0.0.7" (.ok ()), .mainRuns],
    by decide +kernel, by decide +kernel⟩

/-- A device that answers while others are being closed turns the cancellation into another exception, and is not closed. -/
theorem C88_close_race : ∃ evs, (run toyDeps broadcast 3 {} evs).main = .raised (.other "RuntimeError") ["10.0.0.1"] ∧
    (run toyDeps broadcast 3 {} evs).st.discovered.keys = ["10.0.0.1", "10.0.0.2"] :=
  ⟨[.connected, .mainRuns, .searchRuns, plugAt "10.0.0.1", .cancelCaller, .searchRuns, .mainRuns, plugAt "10.0.0.2", .closeEnds (.ok ())],
    by decide +kernel, by decide +kernel⟩

/-- With no packets to send the search fails with a division by zero. -/
theorem C88_no_packets (d : Deps) (o : Options) : ∃ evs, (run d o 0 {} evs).main = .raised (.other "ZeroDivisionError") [] :=
  ⟨[.connected, .mainRuns, .searchRuns, .mainRuns], by rfl⟩

end Kasa.DiscoverTasks
