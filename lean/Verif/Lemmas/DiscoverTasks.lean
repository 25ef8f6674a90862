import Verif.Spec.DiscoverTasks
import Verif.Props.Discover
/-!
# Helpers for the tasks of a search
-/

namespace Kasa.DiscoverTasks
open Discover

section
variable (d : Deps) (o : Options) (packets : Int)

/-! ## What a datagram changes -/

theorem event_seen (s : St) : (discoveredEvent o s).seen = s.seen := by unfold discoveredEvent; split <;> rfl
theorem event_discovered (s : St) : (discoveredEvent o s).discovered = s.discovered := by unfold discoveredEvent; split <;> rfl
theorem event_found (s : St) : (discoveredEvent o s).found = s.found := by unfold discoveredEvent; split <;> rfl
theorem event_reported (s : St) : (discoveredEvent o s).reported = s.reported := by unfold discoveredEvent; split <;> rfl
theorem event_target (s : St) (h : (discoveredEvent o s).targetDiscovered = true) : s.targetDiscovered = true ∨ o.target ∈ s.seen := by
  unfold discoveredEvent at h
  split at h
  · right; assumption
  · exact Or.inl h
theorem event_cancelled (s : St) (h : (discoveredEvent o s).cancelled = true) : s.cancelled = true ∨ o.target ∈ s.seen := by
  unfold discoveredEvent at h
  split at h
  · right; assumption
  · exact Or.inl h

/-- The effect of a datagram. -/
structure Effect (s s' : St) (ip : String) : Prop where
  fresh : ip ∉ s.seen
  seen : s'.seen = s.seen ++ [ip]
  discovered : s'.discovered = s.discovered ∧ s.found.length ≤ s'.found.length ∨
    ∃ dev, s'.discovered = s.discovered.set ip dev ∧ (o.onDiscovered = true → s.found.length < s'.found.length) ∧
      s.found.length ≤ s'.found.length
  reported : s.reported.length ≤ s'.reported.length
  target : s'.targetDiscovered = true → s.targetDiscovered = true ∨ o.target ∈ s'.seen
  cancelled : s'.cancelled = true → s.cancelled = true ∨ o.target ∈ s'.seen

theorem received_effect (s : St) (dg : Datagram) :
    received d o s dg = s ∨ Effect o s (received d o s dg) dg.ip := by
  unfold received
  by_cases hs : dg.ip ∈ s.seen
  · rw [if_pos hs]; exact Or.inl rfl
  · rw [if_neg hs]
    right
    cases handle d o dg with
    | none => exact ⟨hs, rfl, Or.inl ⟨rfl, Nat.le_refl _⟩, Nat.le_refl _, fun h => Or.inl h, fun h => Or.inl h⟩
    | some r =>
      cases r with
      | ok dev =>
        simp only [record]
        refine ⟨hs, event_seen _ _, Or.inr ⟨dev, event_discovered _ _, ?_, ?_⟩, ?_, ?_, ?_⟩
        · intro h; rw [event_found]; simp [h]
        · rw [event_found]
          cases o.onDiscovered <;> simp
        · rw [event_reported]; exact Nat.le_refl _
        · intro h; rw [event_seen]; exact event_target _ _ h
        · intro h; rw [event_seen]; exact event_cancelled _ _ h
      | error e =>
        simp only [record]
        split
        · refine ⟨hs, event_seen _ _, Or.inl ⟨event_discovered _ _, ?_⟩, ?_, ?_, ?_⟩
          · rw [event_found]; exact Nat.le_refl _
          · rw [event_reported]
            cases o.onUnsupported <;> simp
          · intro h; rw [event_seen]; exact event_target _ _ h
          · intro h; rw [event_seen]; exact event_cancelled _ _ h
        · split
          · refine ⟨hs, event_seen _ _, Or.inl ⟨event_discovered _ _, ?_⟩, ?_, ?_, ?_⟩
            · rw [event_found]; exact Nat.le_refl _
            · rw [event_reported]; exact Nat.le_refl _
            · intro h; rw [event_seen]; exact event_target _ _ h
            · intro h; rw [event_seen]; exact event_cancelled _ _ h
          · exact ⟨hs, rfl, Or.inl ⟨rfl, Nat.le_refl _⟩, Nat.le_refl _, fun h => Or.inl h, fun h => Or.inl h⟩

/-! ## The call -/

/-- How far the call is. -/
def Main.stage : Main → Nat
  | .starting => 4
  | .searching => 3
  | .gathering _ _ => 2
  | .closing _ _ _ _ _ => 1
  | .returned _ | .raised _ _ => 0

/-- The call has failed. -/
def Main.failing : Main → Bool
  | .closing _ _ _ _ _ | .raised _ _ => true
  | _ => false

theorem closeNext_eq (s : Sys) (e : Exc) (closed : List String) (left : Dict String Dev) (size : Nat) :
    ∃ m, closeNext s e closed left size = { s with main := m } ∧ m.failing = true := by
  unfold closeNext
  split
  · exact ⟨_, rfl, rfl⟩
  · split
    · exact ⟨_, rfl, rfl⟩
    · split
      · exact ⟨_, rfl, rfl⟩
      · exact ⟨_, rfl, rfl⟩

theorem fail_eq (s : Sys) (e : Exc) : ∃ m, fail s e = { s with main := m } ∧ m.failing = true := by
  unfold fail
  split
  · exact closeNext_eq _ _ _ _ _
  · exact ⟨_, rfl, rfl⟩

theorem gather_eq (s : Sys) : ∃ m, gather s = { s with main := m } ∧
    (m = .returned s.st.discovered ∧ s.callbacks = [] ∨ m = .gathering (s.callbacks.map Prod.fst) (firstError s.callbacks)) := by
  unfold gather
  split
  · exact ⟨_, rfl, Or.inl ⟨rfl, by assumption⟩⟩
  · exact ⟨_, rfl, Or.inr rfl⟩

/-- The search is over, and not by a cancellation that is to be passed on. -/
def Passed (s : Sys) : Prop :=
  s.search = .over ∧ s.mainCancel = false ∨ s.st.targetDiscovered = true ∧ s.search.ended = true ∧ (s.search = .cancelled ∨ s.mainCancel = true)

/-- What the call's own steps, its cancellation and the loss of the connection do to it. -/
inductive Moved (s : Sys) : Ev → Main → Bool → Bool → Prop
  | same (ev : Ev) (h : ev = .cancelCaller → s.main.ended = true) : Moved s ev s.main s.mainCancel s.cancel
  | fails (ev : Ev) (m : Main) (mc : Bool) (hm : m.failing = true) (hs : 2 ≤ s.main.stage) (hmc : mc = s.mainCancel ∨ mc = false) :
      Moved s ev m mc s.cancel
  | closes (ev : Ev) (m : Main) (hm : m.failing = true) (hs : s.main.stage = 1)
      (hl : ∀ e c ip l n, s.main = .closing e c ip l n → ∀ e' c' ip' l' n', m = .closing e' c' ip' l' n' → l'.length < l.length) :
      Moved s ev m s.mainCancel s.cancel
  | waits (h : s.main = .starting) (hs : s.search ≠ .none) (he : s.search.ended = false) : Moved s .mainRuns .searching s.mainCancel s.cancel
  | gathers (h : s.main = .starting ∨ s.main = .searching) (hp : Passed s) (hc : s.callbacks ≠ []) :
      Moved s .mainRuns (.gathering (s.callbacks.map Prod.fst) (firstError s.callbacks)) false s.cancel
  | empty (h : s.main = .starting ∨ s.main = .searching) (hp : Passed s) (hc : s.callbacks = []) :
      Moved s .mainRuns (.returned s.st.discovered) false s.cancel
  | gathered (hosts : List String) (h : s.main = .gathering hosts none) (ho : allOver s hosts = true) (hm : s.mainCancel = false) :
      Moved s .mainRuns (.returned s.st.discovered) false s.cancel
  | cancels (h : s.main = .searching) : Moved s .cancelCaller s.main true (s.cancel || s.search.active)
  | cancelsGather (hosts : List String) (h : s.main = .gathering hosts none) (ho : allOver s hosts = false) :
      Moved s .cancelCaller s.main true s.cancel
  | cancelled (hosts : List String) (f : Option Exc) (h : s.main = .gathering hosts f) :
      Moved s .cancelCaller (.gathering hosts (some .base)) s.mainCancel s.cancel
  | lost (h : s.main.ended = true) : Moved s .lost s.main s.mainCancel (s.cancel || s.search.active)

/-- The events that only concern the call. -/
def Ev.main : Ev → Bool
  | .startTimeout | .mainRuns | .closeEnds _ | .cancelCaller | .lost => true
  | _ => false

theorem closeNext_less (s : Sys) (e : Exc) (closed : List String) (left : Dict String Dev) (size : Nat) (m : Main)
    (h : closeNext s e closed left size = { s with main := m }) (e' : Exc) (c' : List String) (ip' : String) (l' : Dict String Dev) (n' : Nat)
    (hm : m = .closing e' c' ip' l' n') : l'.length < left.length := by
  have h := congrArg Sys.main h
  subst hm
  unfold closeNext at h
  split at h
  · cases h
  · split at h
    · cases h
    · split at h
      · cases h
      · cases h; simp

theorem searched_moved (s : Sys) (hm : s.main = .starting ∨ s.main = .searching) (he : s.search.ended = true) :
    ∃ m mc, searched s = { s with main := m, mainCancel := mc } ∧ Moved s .mainRuns m mc s.cancel := by
  have hst : 2 ≤ s.main.stage := by rcases hm with h | h <;> rw [h] <;> decide
  have g : ∀ s' : Sys, s' = { s with mainCancel := false } → Passed s →
      ∃ m mc, gather s' = { s with main := m, mainCancel := mc } ∧ Moved s .mainRuns m mc s.cancel := by
    rintro s' rfl hp
    obtain ⟨m, h, hc⟩ := gather_eq { s with mainCancel := false }
    rcases hc with ⟨rfl, hc⟩ | rfl
    · exact ⟨_, false, h, .empty hm hp hc⟩
    · by_cases hc : s.callbacks = []
      · unfold gather at h
        rw [if_pos hc] at h
        have := congrArg Sys.main h
        cases this
      · exact ⟨_, false, h, .gathers hm hp hc⟩
  unfold searched
  split
  · rename_i hc
    split
    · rename_i ht
      exact g _ rfl (Or.inr ⟨ht, he, by simpa using hc⟩)
    · obtain ⟨m, h, hf⟩ := fail_eq { s with mainCancel := false } .base
      exact ⟨m, false, h, .fails _ _ _ hf hst (Or.inr rfl)⟩
  · rename_i hc
    have hmc : s.mainCancel = false := by
      cases h : s.mainCancel
      · rfl
      · exact absurd (Or.inr h) hc
    split
    · obtain ⟨m, h, hf⟩ := fail_eq s _
      exact ⟨m, s.mainCancel, h, .fails _ _ _ hf hst (Or.inl rfl)⟩
    · rename_i hr
      refine g s (by rw [← hmc]) (Or.inl ⟨?_, hmc⟩)
      cases h : s.search with
      | over => rfl
      | cancelled => exact absurd (Or.inl h) hc
      | raised e => exact absurd h (hr e)
      | none => rw [h] at he; cases he
      | created => rw [h] at he; cases he
      | sleeping _ => rw [h] at he; cases he

theorem moved (s : Sys) (ev : Ev) (h : ev.main = true) :
    ∃ m mc c, step d o packets s ev = { s with main := m, mainCancel := mc, cancel := c } ∧ Moved s ev m mc c := by
  cases ev with
  | startTimeout =>
    simp only [step, startTimeout]
    split
    · rename_i h
      exact ⟨_, s.mainCancel, s.cancel, rfl, .fails _ _ _ rfl (by rw [h.1]; decide) (Or.inl rfl)⟩
    · exact ⟨_, s.mainCancel, s.cancel, rfl, .same _ (by simp)⟩
  | mainRuns =>
    simp only [step, mainRuns]
    split
    · rename_i hm
      split
      · exact ⟨_, s.mainCancel, s.cancel, rfl, .same _ (by simp)⟩
      · split
        · obtain ⟨m, mc, h1, h2⟩ := searched_moved s (Or.inl hm) (by assumption)
          exact ⟨m, mc, s.cancel, h1, h2⟩
        · exact ⟨_, s.mainCancel, s.cancel, rfl, .waits hm (by assumption) (by simp_all)⟩
    · rename_i hm
      split
      · obtain ⟨m, mc, h1, h2⟩ := searched_moved s (Or.inr hm) (by assumption)
        exact ⟨m, mc, s.cancel, h1, h2⟩
      · exact ⟨_, s.mainCancel, s.cancel, rfl, .same _ (by simp)⟩
    · rename_i hm
      obtain ⟨m, h1, h2⟩ := fail_eq s _
      exact ⟨m, s.mainCancel, s.cancel, h1, .fails _ _ _ h2 (by rw [hm]; exact Nat.le_refl _) (Or.inl rfl)⟩
    · rename_i hm
      split
      · split
        · obtain ⟨m, h1, h2⟩ := fail_eq { s with mainCancel := false } .base
          exact ⟨m, false, s.cancel, h1, .fails _ _ _ h2 (by rw [hm]; exact Nat.le_refl _) (Or.inr rfl)⟩
        · rename_i ho hc
          have hc : s.mainCancel = false := by simpa using hc
          refine ⟨_, false, s.cancel, ?_, .gathered _ hm ho hc⟩
          rw [← hc]
      · exact ⟨_, s.mainCancel, s.cancel, rfl, .same _ (by simp)⟩
    · exact ⟨_, s.mainCancel, s.cancel, rfl, .same _ (by simp)⟩
  | closeEnds r =>
    simp only [step, closeEnds]
    split
    · rename_i hm
      obtain ⟨m, h1, h2⟩ := closeNext_eq s _ _ _ _
      refine ⟨m, s.mainCancel, s.cancel, h1, .closes _ _ h2 (by rw [hm]; rfl) ?_⟩
      intro e c ip l n hm' e' c' ip' l' n' hm''
      rw [hm] at hm'
      cases hm'
      exact closeNext_less s _ _ _ _ m h1 _ _ _ _ _ hm''
    · rename_i hm
      exact ⟨_, s.mainCancel, s.cancel, rfl, .closes _ _ rfl (by rw [hm]; rfl) (fun _ _ _ _ _ _ _ _ _ _ _ h => nomatch h)⟩
    · exact ⟨_, s.mainCancel, s.cancel, rfl, .same _ (by simp)⟩
  | cancelCaller =>
    simp only [step, cancelCaller]
    split
    · rename_i hm
      obtain ⟨m, h1, h2⟩ := fail_eq s .base
      exact ⟨m, s.mainCancel, s.cancel, h1, .fails _ _ _ h2 (by rw [hm]; decide) (Or.inl rfl)⟩
    · rename_i hm
      exact ⟨s.main, true, _, rfl, .cancels hm⟩
    · rename_i hm
      split
      · exact ⟨_, s.mainCancel, s.cancel, rfl, .cancelled _ _ hm⟩
      · exact ⟨s.main, true, s.cancel, rfl, .cancelsGather _ hm (by simp_all)⟩
    · rename_i hm
      exact ⟨_, s.mainCancel, s.cancel, rfl, .cancelled _ _ hm⟩
    · rename_i hm
      exact ⟨_, s.mainCancel, s.cancel, rfl, .closes _ _ rfl (by rw [hm]; rfl) (fun _ _ _ _ _ _ _ _ _ _ _ h => nomatch h)⟩
    · rename_i h1 h2 h3 h4 h5
      refine ⟨s.main, s.mainCancel, s.cancel, rfl, .same _ fun _ => ?_⟩
      cases hm : s.main with
      | returned _ => rfl
      | raised _ _ => rfl
      | starting => exact absurd hm h1
      | searching => exact absurd hm h2
      | gathering hosts f =>
        cases f with
        | none => exact absurd hm (h3 _)
        | some e => exact absurd hm (h4 _ _)
      | closing e c ip l n => exact absurd hm (h5 _ _ _ _ _)
  | lost =>
    simp only [step, lost]
    split
    · exact ⟨s.main, s.mainCancel, _, rfl, .lost (by assumption)⟩
    · exact ⟨s.main, s.mainCancel, s.cancel, rfl, .same _ (by simp)⟩
  | connected => cases h
  | searchRuns => cases h
  | datagram _ => cases h
  | callbackEnds _ _ => cases h

/-! ## What every reachable state satisfies -/

structure Inv (s : Sys) : Prop where
  hosts : ∀ h ∈ s.callbacks.map Prod.fst, h ∈ s.st.seen
  once : (s.callbacks.map Prod.fst).Nodup
  known : ∀ h ∈ s.st.discovered.keys, h ∈ s.st.seen
  called : o.onDiscovered = true → ∀ h ∈ s.st.discovered.keys, h ∈ s.callbacks.map Prod.fst
  target : s.st.targetDiscovered = true → o.target ∈ s.st.seen
  gathered : ∀ hosts f, s.main = .gathering hosts f → ∀ h ∈ hosts, h ∈ s.st.seen
  begun : s.main = .searching → s.search ≠ .none

theorem inv_init : Inv o {} := by
  refine ⟨?_, ?_, ?_, ?_, ?_, ?_, ?_⟩ <;> simp [St.init]

/-- Changing only the call. -/
theorem Inv.main {s : Sys} (h : Inv o s) (m : Main) (mc c : Bool)
    (hg : ∀ hosts f, m = .gathering hosts f → ∀ h ∈ hosts, h ∈ s.st.seen) (hb : m = .searching → s.search ≠ .none) :
    Inv o { s with main := m, mainCancel := mc, cancel := c } :=
  ⟨h.hosts, h.once, h.known, h.called, h.target, hg, hb⟩

theorem Inv.failing {s : Sys} (h : Inv o s) {m : Main} (hm : m.failing = true) (mc c : Bool) :
    Inv o { s with main := m, mainCancel := mc, cancel := c } :=
  h.main o m mc c (by rintro _ _ rfl; cases hm) (by rintro rfl; cases hm)

/-- The search task's steps change nothing but it and its counters. -/
theorem round_eq (s : Sys) (n : Nat) : ∃ t k, round o s n = { s with search := t, sent := k } ∧ t ≠ .none ∧
    (n = 0 ∧ t = .over ∧ k = s.sent ∨ (∃ l, n = l + 1 ∧ o.target ∈ s.st.seen ∧ t = .over ∧ k = s.sent) ∨
      ∃ l, n = l + 1 ∧ o.target ∉ s.st.seen ∧ t = .sleeping l ∧ k = s.sent + 1) := by
  cases n with
  | zero => exact ⟨_, s.sent, rfl, by simp, Or.inl ⟨rfl, rfl, rfl⟩⟩
  | succ l =>
    simp only [round]
    split
    · exact ⟨_, s.sent, rfl, by simp, Or.inr (Or.inl ⟨l, rfl, by assumption, rfl, rfl⟩)⟩
    · exact ⟨_, _, rfl, by simp, Or.inr (Or.inr ⟨l, rfl, by assumption, rfl, rfl⟩)⟩

theorem searchRuns_eq (s : Sys) : ∃ t k j, searchRuns o packets s = { s with search := t, sent := k, slept := j } ∧
    (s.search ≠ .none → t ≠ .none) := by
  unfold searchRuns
  split
  · split
    · exact ⟨_, s.sent, s.slept, rfl, fun _ => by simp⟩
    · split
      · exact ⟨_, s.sent, s.slept, rfl, fun _ => by simp⟩
      · obtain ⟨t, k, h, hn, -⟩ := round_eq o s packets.toNat
        exact ⟨t, k, s.slept, h, fun _ => hn⟩
  · split
    · exact ⟨_, s.sent, s.slept, rfl, fun _ => by simp⟩
    · rename_i left _ _
      obtain ⟨t, k, h, hn, -⟩ := round_eq o { s with slept := s.slept + 1 } left
      exact ⟨t, k, s.slept + 1, h, fun _ => hn⟩
  · exact ⟨s.search, s.sent, s.slept, rfl, fun h => h⟩

theorem map_fst_ends (cs : List (String × Option (Except Exc Unit))) (host : String) (r : Except Exc Unit) :
    (cs.map fun c => if c = (host, none) then (host, some r) else c).map Prod.fst = cs.map Prod.fst := by
  rw [List.map_map]
  apply List.map_congr_left
  intro c _
  simp only [Function.comp]
  split
  · rename_i h; rw [h]
  · rfl

theorem inv_step {s : Sys} (h : Inv o s) (ev : Ev) : Inv o (step d o packets s ev) := by
  have mo : ∀ ev : Ev, ev.main = true → Inv o (step d o packets s ev) := by
    intro ev hev
    obtain ⟨m, mc, c, h1, h2⟩ := moved d o packets s ev hev
    rw [h1]
    apply h.main
    · intro hosts f hm
      cases h2 with
      | same _ _ => exact h.gathered _ _ hm
      | fails _ _ _ hf => rw [hm] at hf; cases hf
      | closes _ _ hf => rw [hm] at hf; cases hf
      | waits => cases hm
      | gathers => cases hm; exact h.hosts
      | empty => cases hm
      | gathered => cases hm
      | cancels => exact h.gathered _ _ hm
      | cancelsGather => exact h.gathered _ _ hm
      | cancelled hosts' f' h2 => cases hm; exact h.gathered _ _ h2
      | lost => exact h.gathered _ _ hm
    · intro hm
      cases h2 with
      | same _ _ => exact h.begun hm
      | fails _ _ _ hf => rw [hm] at hf; cases hf
      | closes _ _ hf => rw [hm] at hf; cases hf
      | waits _ hs => exact hs
      | gathers => cases hm
      | empty => cases hm
      | gathered => cases hm
      | cancels => exact h.begun hm
      | cancelsGather => exact h.begun hm
      | cancelled hosts' f' h2 => cases hm
      | lost => exact h.begun hm
  cases ev with
  | connected =>
    simp only [step, connected]
    split
    · exact ⟨h.hosts, h.once, h.known, h.called, h.target, h.gathered, fun _ => by simp⟩
    · exact h
  | searchRuns =>
    obtain ⟨t, k, j, h1, h2⟩ := searchRuns_eq o packets s
    simp only [step]
    rw [h1]
    exact ⟨h.hosts, h.once, h.known, h.called, h.target, h.gathered, fun hm => h2 (h.begun hm)⟩
  | datagram dg =>
    simp only [step, datagram]
    split
    · exact h
    · rcases received_effect d o { s.st with cancelled := false } dg with he | he
      · rw [he]
        simp only [Nat.lt_irrefl, if_false]
        exact ⟨h.hosts, h.once, h.known, h.called, h.target, h.gathered, h.begun⟩
      · generalize received d o { s.st with cancelled := false } dg = st' at he ⊢
        have hip : dg.ip ∉ s.st.seen := he.fresh
        have hip' : dg.ip ∉ s.callbacks.map Prod.fst := fun hc => hip (h.hosts _ hc)
        have hseen : st'.seen = s.st.seen ++ [dg.ip] := he.seen
        have hmem : ∀ x, x ∈ s.st.seen → x ∈ st'.seen := fun x hx => by rw [hseen]; simp [hx]
        have hipm : dg.ip ∈ st'.seen := by rw [hseen]; simp
        refine ⟨?_, ?_, ?_, ?_, ?_, fun hosts f hf x hx => hmem _ (h.gathered hosts f hf x hx), h.begun⟩
        · intro x hx
          dsimp only at hx ⊢
          split at hx
          · rw [List.map_append, List.mem_append] at hx
            rcases hx with hx | hx
            · exact hmem _ (h.hosts _ hx)
            · simp at hx; rw [hx]; exact hipm
          · exact hmem _ (h.hosts _ hx)
        · dsimp only
          split
          · rw [List.map_append, List.nodup_append]
            refine ⟨h.once, by simp, ?_⟩
            intro a ha b hb
            simp at hb
            rw [hb]
            rintro rfl
            exact hip' ha
          · exact h.once
        · intro x hx
          dsimp only at hx ⊢
          rcases he.discovered with ⟨hd, -⟩ | ⟨dev, hd, -⟩
          · rw [hd] at hx; exact hmem _ (h.known _ hx)
          · rw [hd, Dict.mem_keys_set] at hx
            rcases hx with hx | hx
            · rw [hx]; exact hipm
            · exact hmem _ (h.known _ hx)
        · intro ho x hx
          dsimp only at hx ⊢
          rcases he.discovered with ⟨hd, -⟩ | ⟨dev, hd, hlt, -⟩
          · rw [hd] at hx
            have := h.called ho x hx
            split
            · rw [List.map_append, List.mem_append]; exact Or.inl this
            · exact this
          · have hl : s.st.found.length < st'.found.length := hlt ho
            have hr : s.st.reported.length ≤ st'.reported.length := he.reported
            rw [if_pos (by omega)]
            rw [hd, Dict.mem_keys_set] at hx
            rw [List.map_append, List.mem_append]
            rcases hx with hx | hx
            · right; simp [hx]
            · exact Or.inl (h.called ho x hx)
        · intro ht
          rcases he.target ht with h1 | h1
          · exact hmem _ (h.target h1)
          · exact h1
  | callbackEnds host r =>
    simp only [step, callbackEnds]
    split
    · refine ⟨?_, ?_, h.known, ?_, h.target, ?_, ?_⟩
      · intro x hx; dsimp only at hx ⊢; rw [map_fst_ends] at hx; exact h.hosts x hx
      · dsimp only; rw [map_fst_ends]; exact h.once
      · intro ho x hx; dsimp only at hx ⊢; rw [map_fst_ends]; exact h.called ho x hx
      · intro hosts f hf
        dsimp only at hf ⊢
        split at hf
        · split at hf
          · cases hf; exact h.gathered _ _ (by assumption)
          · exact h.gathered _ _ hf
        · exact h.gathered _ _ hf
      · intro hb
        dsimp only at hb ⊢
        split at hb
        · split at hb
          · cases hb
          · exact h.begun hb
        · exact h.begun hb
    · exact h
  | startTimeout => exact mo _ rfl
  | mainRuns => exact mo _ rfl
  | closeEnds _ => exact mo _ rfl
  | cancelCaller => exact mo _ rfl
  | lost => exact mo _ rfl

/-- An invariant along a schedule. -/
theorem run_inv (I : Sys → Prop) (hstep : ∀ s ev, I s → I (step d o packets s ev)) {s : Sys} (h : I s) (evs : List Ev) :
    I (run d o packets s evs) := by
  induction evs generalizing s with
  | nil => exact h
  | cons ev evs ih => exact ih (hstep s ev h)

theorem inv_run (evs : List Ev) : Inv o (run d o packets {} evs) :=
  run_inv d o packets (Inv o) (fun _ ev h => inv_step d o packets h ev) (inv_init o) evs

theorem run_append (s : Sys) (a b : List Ev) : run d o packets s (a ++ b) = run d o packets (run d o packets s a) b := by
  unfold run; rw [List.foldl_append]

/-! ## The result -/

theorem received_cancelled (s : St) (dg : Datagram) (b : Bool) :
    ∃ c, received d o { s with cancelled := b } dg = { received d o s dg with cancelled := c } := by
  have hev : ∀ s : St, ∀ b, ∃ c, discoveredEvent o { s with cancelled := b } = { discoveredEvent o s with cancelled := c } := by
    intro s b
    unfold discoveredEvent
    by_cases h : o.target ∈ s.seen
    · rw [if_pos h, if_pos h]; exact ⟨true, rfl⟩
    · rw [if_neg h, if_neg h]; exact ⟨b, rfl⟩
  unfold received
  by_cases h : dg.ip ∈ s.seen
  · rw [if_pos h, if_pos h]; exact ⟨b, rfl⟩
  · rw [if_neg h, if_neg h]
    cases handle d o dg with
    | none => exact ⟨b, rfl⟩
    | some r =>
      cases r with
      | ok dev => exact hev { s with
          seen := s.seen ++ [dg.ip], discovered := s.discovered.set dg.ip dev
          found := if o.onDiscovered then s.found ++ [dev] else s.found } b
      | error e =>
        simp only [record]
        split
        · exact hev { s with
            seen := s.seen ++ [dg.ip], unsupported := s.unsupported.set dg.ip e
            reported := if o.onUnsupported then s.reported ++ [dg.ip] else s.reported } b
        · split
          · exact hev { s with seen := s.seen ++ [dg.ip], invalid := s.invalid.set dg.ip e } b
          · exact ⟨b, rfl⟩

/-- Only datagrams change what is known. -/
theorem step_st (s : Sys) (ev : Ev) (h : ∀ dg, ev = .datagram dg → s.main.ended = true) : (step d o packets s ev).st = s.st := by
  by_cases hm : ev.main = true
  · obtain ⟨m, mc, c, h1, -⟩ := moved d o packets s ev hm
    rw [h1]
  · cases ev with
    | connected => simp only [step, connected]; split <;> rfl
    | searchRuns =>
      obtain ⟨t, k, j, h1, -⟩ := searchRuns_eq o packets s
      simp only [step]; rw [h1]
    | datagram dg => simp only [step, datagram]; rw [if_pos (h dg rfl)]
    | callbackEnds host r => simp only [step, callbackEnds]; split <;> rfl
    | startTimeout => exact absurd rfl hm
    | mainRuns => exact absurd rfl hm
    | closeEnds _ => exact absurd rfl hm
    | cancelCaller => exact absurd rfl hm
    | lost => exact absurd rfl hm

theorem st_arrived (evs : List Ev) (s : Sys) (st : St) (c : Bool) (h : s.st = { st with cancelled := c }) :
    ∃ c', (run d o packets s evs).st = { receiveAll d o st (arrived d o packets s evs) with cancelled := c' } := by
  induction evs generalizing s st c with
  | nil => exact ⟨c, h⟩
  | cons ev evs ih =>
    have keep : (step d o packets s ev).st = s.st →
        arrived d o packets s (ev :: evs) = arrived d o packets (step d o packets s ev) evs →
        ∃ c', (run d o packets s (ev :: evs)).st = { receiveAll d o st (arrived d o packets s (ev :: evs)) with cancelled := c' } := by
      intro h1 h2
      rw [h2]
      exact ih (step d o packets s ev) st c (h1.trans h)
    cases ev with
    | datagram dg =>
      by_cases he : s.main.ended = true
      · exact keep (step_st d o packets s _ (fun _ _ => he)) (by simp [arrived, he])
      · simp only [arrived]
        rw [if_neg he]
        have hst : (step d o packets s (.datagram dg)).st = received d o { st with cancelled := false } dg := by
          simp only [step, datagram]
          rw [if_neg he, h]
        obtain ⟨c1, h1⟩ := received_cancelled d o st dg false
        obtain ⟨c', h'⟩ := ih (step d o packets s (.datagram dg)) (received d o st dg) c1 (hst.trans h1)
        exact ⟨c', h'⟩
    | connected => exact keep (step_st d o packets s _ (fun _ h => nomatch h)) rfl
    | searchRuns => exact keep (step_st d o packets s _ (fun _ h => nomatch h)) rfl
    | callbackEnds _ _ => exact keep (step_st d o packets s _ (fun _ h => nomatch h)) rfl
    | startTimeout => exact keep (step_st d o packets s _ (fun _ h => nomatch h)) rfl
    | mainRuns => exact keep (step_st d o packets s _ (fun _ h => nomatch h)) rfl
    | closeEnds _ => exact keep (step_st d o packets s _ (fun _ h => nomatch h)) rfl
    | cancelCaller => exact keep (step_st d o packets s _ (fun _ h => nomatch h)) rfl
    | lost => exact keep (step_st d o packets s _ (fun _ h => nomatch h)) rfl

/-- The end of a callback leaves the call where it is, up to the first failure. -/
theorem callbackEnds_main (s : Sys) (host : String) (r : Except Exc Unit) :
    (callbackEnds s host r).main = s.main ∨
      ∃ hosts e, s.main = .gathering hosts none ∧ host ∈ hosts ∧ r = .error e ∧ (callbackEnds s host r).main = .gathering hosts (some e) := by
  unfold callbackEnds
  split
  · dsimp only
    split
    · split
      · right; exact ⟨_, _, by assumption, by assumption, rfl, rfl⟩
      · exact Or.inl rfl
    · exact Or.inl rfl
  · exact Or.inl rfl

/-- What only concerns the call is as it was after any other event. -/
theorem step_main (s : Sys) (ev : Ev) (h : ev.main = false) :
    ((step d o packets s ev).main = s.main ∨
      ∃ hosts host e, s.main = .gathering hosts none ∧ host ∈ hosts ∧ ev = .callbackEnds host (.error e) ∧
        (step d o packets s ev).main = .gathering hosts (some e)) ∧
      (step d o packets s ev).mainCancel = s.mainCancel := by
  cases ev with
  | connected => simp only [step, connected]; split <;> exact ⟨Or.inl rfl, rfl⟩
  | searchRuns =>
    obtain ⟨t, k, j, h1, -⟩ := searchRuns_eq o packets s
    simp only [step]; rw [h1]; exact ⟨Or.inl rfl, rfl⟩
  | datagram dg => simp only [step, datagram]; split <;> exact ⟨Or.inl rfl, rfl⟩
  | callbackEnds host r =>
    refine ⟨?_, ?_⟩
    · rcases callbackEnds_main s host r with h | ⟨hosts, e, h1, h2, rfl, h3⟩
      · exact Or.inl h
      · exact Or.inr ⟨hosts, host, e, h1, h2, rfl, h3⟩
    · simp only [step, callbackEnds]; split <;> rfl
  | startTimeout => cases h
  | mainRuns => cases h
  | closeEnds _ => cases h
  | cancelCaller => cases h
  | lost => cases h

/-- What a call returned is what it knows. -/
theorem returned_step (s : Sys) (ev : Ev) (h : ∀ devs, s.main = .returned devs → devs = s.st.discovered) (devs : Dict String Dev)
    (hm : (step d o packets s ev).main = .returned devs) : devs = (step d o packets s ev).st.discovered := by
  by_cases he : ev.main = true
  · obtain ⟨m, mc, c, h1, h2⟩ := moved d o packets s ev he
    rw [h1] at hm ⊢
    dsimp only at hm ⊢
    cases h2 with
    | same _ _ => exact h _ hm
    | fails _ _ _ hf => rw [hm] at hf; cases hf
    | closes _ _ hf => rw [hm] at hf; cases hf
    | waits => cases hm
    | gathers => cases hm
    | empty => cases hm; rfl
    | gathered => cases hm; rfl
    | cancels => exact h _ hm
    | cancelsGather => exact h _ hm
    | cancelled => cases hm
    | lost => exact h _ hm
  · have he : ev.main = false := by simpa using he
    rcases (step_main d o packets s ev he).1 with h1 | ⟨_, _, _, _, _, _, h1⟩
    · rw [h1] at hm
      rw [step_st d o packets s ev (fun _ _ => by rw [hm]; rfl)]
      exact h _ hm
    · rw [h1] at hm; cases hm

end
end Kasa.DiscoverTasks
