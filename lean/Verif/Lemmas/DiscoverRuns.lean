import Verif.Lemmas.DiscoverTasks
/-!
# Invariants of searches
-/

namespace Kasa.DiscoverTasks
open Discover

section
variable (d : Deps) (o : Options) (packets : Int)

/-! ## Searches that nothing cuts short -/

theorem seen_step (s : Sys) (ev : Ev) (x : String) (h : x ∈ s.st.seen) : x ∈ (step d o packets s ev).st.seen := by
  by_cases hd : ∃ dg, ev = .datagram dg
  · obtain ⟨dg, rfl⟩ := hd
    simp only [step, datagram]
    split
    · exact h
    · rcases received_effect d o { s.st with cancelled := false } dg with he | he
      · rw [he]; exact h
      · have := he.seen
        dsimp only at this ⊢
        rw [this]
        simp [h]
  · rw [step_st d o packets s ev (fun dg he => absurd ⟨dg, he⟩ hd)]; exact h

theorem seen_run (s : Sys) (evs : List Ev) (x : String) (h : x ∈ s.st.seen) : x ∈ (run d o packets s evs).st.seen :=
  run_inv d o packets (fun s => x ∈ s.st.seen) (fun s ev h => seen_step d o packets s ev x h) h evs

/-- What the counters say. -/
def Count (packets : Int) (s : Sys) : Prop :=
  match s.search with
  | .none | .created => s.sent = 0 ∧ s.slept = 0
  | .sleeping left => s.sent = s.slept + 1 ∧ s.sent + left = packets.toNat ∧ packets ≠ 0
  | .over => s.sent = packets.toNat ∧ s.slept = packets.toNat ∧ packets ≠ 0
  | _ => True

structure Full (s : Sys) : Prop where
  cancel : s.cancel = true → s.main.failing = true
  main : s.mainCancel = false
  cancelled : s.search = .cancelled → s.main.failing = true
  count : Count packets s
  over : ∀ hosts f, s.main = .gathering hosts f → s.search = .over
  returned : ∀ devs, s.main = .returned devs → s.search = .over

theorem full_init : Full packets {} := by
  refine ⟨by simp, rfl, by simp, ⟨rfl, rfl⟩, by simp, by simp⟩

theorem failing_moved {s : Sys} {ev : Ev} {m : Main} {mc c : Bool} (h : Moved s ev m mc c) (hf : s.main.failing = true) :
    m.failing = true := by
  cases h with
  | same _ _ => exact hf
  | fails _ _ _ h => exact h
  | closes _ _ h => exact h
  | waits h => rw [h] at hf; cases hf
  | gathers h => rcases h with h | h <;> rw [h] at hf <;> cases hf
  | empty h => rcases h with h | h <;> rw [h] at hf <;> cases hf
  | gathered _ h => rw [h] at hf; cases hf
  | cancels h => exact hf
  | cancelsGather _ h => exact hf
  | cancelled _ _ h => rw [h] at hf; cases hf
  | lost => exact hf

theorem full_step {s : Sys} (hi : Inv o s) (h : Full packets s) (ev : Ev) (hc : ev ≠ .cancelCaller)
    (ht : o.target ∉ (step d o packets s ev).st.seen) : Full packets (step d o packets s ev) := by
  have ht' : o.target ∉ s.st.seen := fun hx => ht (seen_step d o packets s ev _ hx)
  by_cases hev : ev.main = true
  · obtain ⟨m, mc, c, h1, h2⟩ := moved d o packets s ev hev
    rw [h1]
    have hpass : Passed s → s.search = .over := by
      rintro (⟨hp, -⟩ | ⟨hp, -⟩)
      · exact hp
      · exact absurd (hi.target hp) ht'
    have hend : s.main.ended = true → s.main.failing = false → s.search.active = false := by
      intro h3 h4
      cases hm : s.main with
      | returned devs => rw [h.returned _ hm]; rfl
      | raised _ _ => rw [hm] at h4; cases h4
      | starting => rw [hm] at h3; cases h3
      | searching => rw [hm] at h3; cases h3
      | gathering _ _ => rw [hm] at h3; cases h3
      | closing _ _ _ _ _ => rw [hm] at h3; cases h3
    refine ⟨?_, ?_, fun hs => failing_moved h2 (h.cancelled hs), h.count, ?_, ?_⟩
    · intro hcc
      dsimp only at hcc ⊢
      by_cases hf : s.main.failing = true
      · exact failing_moved h2 hf
      · have hcf : s.cancel = false := by
          cases hx : s.cancel
          · rfl
          · exact absurd (h.cancel hx) hf
        cases h2 with
        | cancels => exact absurd rfl hc
        | lost he =>
          rw [hcf, hend he (by simpa using hf)] at hcc
          cases hcc
        | same _ _ => rw [hcf] at hcc; cases hcc
        | fails _ _ _ h => exact h
        | closes _ _ h => exact h
        | waits h => rw [hcf] at hcc; cases hcc
        | gathers h => rw [hcf] at hcc; cases hcc
        | empty h => rw [hcf] at hcc; cases hcc
        | gathered _ h => rw [hcf] at hcc; cases hcc
        | cancelsGather _ h => rw [hcf] at hcc; cases hcc
        | cancelled _ _ h => rw [hcf] at hcc; cases hcc
    · dsimp only
      cases h2 with
      | same _ _ => exact h.main
      | fails _ _ _ _ _ hmc => rcases hmc with h3 | h3 <;> rw [h3]; exact h.main
      | closes _ _ _ => exact h.main
      | waits _ => exact h.main
      | gathers _ => rfl
      | empty _ => rfl
      | gathered _ _ => rfl
      | cancels _ => exact absurd rfl hc
      | cancelsGather _ _ => exact absurd rfl hc
      | cancelled _ _ _ => exact h.main
      | lost => exact h.main
    · intro hosts f hm
      dsimp only at hm ⊢
      cases h2 with
      | same _ _ => exact h.over _ _ hm
      | fails _ _ _ hf => rw [hm] at hf; cases hf
      | closes _ _ hf => rw [hm] at hf; cases hf
      | waits _ => cases hm
      | gathers _ hp => exact hpass hp
      | empty _ => cases hm
      | gathered _ _ => cases hm
      | cancels _ => exact h.over _ _ hm
      | cancelsGather _ _ => exact h.over _ _ hm
      | cancelled _ _ h2 => exact h.over _ _ h2
      | lost => exact h.over _ _ hm
    · intro devs hm
      dsimp only at hm ⊢
      cases h2 with
      | same _ _ => exact h.returned _ hm
      | fails _ _ _ hf => rw [hm] at hf; cases hf
      | closes _ _ hf => rw [hm] at hf; cases hf
      | waits _ => cases hm
      | gathers _ hp => cases hm
      | empty _ hp => exact hpass hp
      | gathered _ h2 => exact h.over _ _ h2
      | cancels _ => exact h.returned _ hm
      | cancelsGather _ _ => exact h.returned _ hm
      | cancelled _ _ h2 => cases hm
      | lost => exact h.returned _ hm
  · cases ev with
    | connected =>
      simp only [step, connected]
      split
      · rename_i hn
        have hcnt := h.count
        unfold Count at hcnt
        rw [hn.1] at hcnt
        refine ⟨h.cancel, h.main, by simp, hcnt, ?_, ?_⟩
        · intro hosts f hm; have := h.over _ _ hm; rw [hn.1] at this; cases this
        · intro devs hm; have := h.returned _ hm; rw [hn.1] at this; cases this
      · exact h
    | searchRuns =>
      have hcnt := h.count
      have rnd : ∀ (s' : Sys) (n : Nat), s'.st = s.st → s'.main = s.main → s'.cancel = s.cancel → s'.mainCancel = s.mainCancel →
          s.search ≠ .over → s'.sent = s'.slept → s'.sent + n = packets.toNat → packets ≠ 0 → Full packets (round o s' n) := by
        intro s' n e1 e2 e3 e4 hno e5 e6 e7
        obtain ⟨t, k, h1, hn, h2⟩ := round_eq o s' n
        rw [h1]
        have g1 : ∀ hosts f, s'.main = .gathering hosts f → t = .over := by
          intro hosts f hm; rw [e2] at hm; exact absurd (h.over _ _ hm) hno
        have g2 : ∀ devs, s'.main = .returned devs → t = .over := by
          intro devs hm; rw [e2] at hm; exact absurd (h.returned _ hm) hno
        refine ⟨by rw [e2, e3]; exact h.cancel, by rw [e4]; exact h.main, ?_, ?_, g1, g2⟩
        · intro hs
          dsimp only at hs
          rcases h2 with ⟨-, h2, -⟩ | ⟨_, -, -, h2, -⟩ | ⟨_, -, -, h2, -⟩ <;> rw [h2] at hs <;> cases hs
        · rcases h2 with ⟨rfl, rfl, rfl⟩ | ⟨_, -, h2, -⟩ | ⟨l, rfl, -, rfl, rfl⟩
          · exact ⟨e6, e5 ▸ e6, e7⟩
          · rw [e1] at h2; exact absurd h2 ht'
          · refine ⟨by dsimp only; omega, by dsimp only; omega, e7⟩
      simp only [step, searchRuns]
      split
      · rename_i hs
        unfold Count at hcnt
        rw [hs] at hcnt
        split
        · rename_i hcc
          refine ⟨h.cancel, h.main, fun _ => h.cancel hcc, trivial, ?_, ?_⟩
          · intro hosts f hm; have := h.over _ _ hm; rw [hs] at this; cases this
          · intro devs hm; have := h.returned _ hm; rw [hs] at this; cases this
        · split
          · refine ⟨h.cancel, h.main, by simp, trivial, ?_, ?_⟩
            · intro hosts f hm; have := h.over _ _ hm; rw [hs] at this; cases this
            · intro devs hm; have := h.returned _ hm; rw [hs] at this; cases this
          · exact rnd s _ rfl rfl rfl rfl (by rw [hs]; simp) (by rw [hcnt.1, hcnt.2]) (by rw [hcnt.1, Nat.zero_add]) (by assumption)
      · rename_i left hs
        unfold Count at hcnt
        rw [hs] at hcnt
        split
        · rename_i hcc
          refine ⟨h.cancel, h.main, fun _ => h.cancel hcc, trivial, ?_, ?_⟩
          · intro hosts f hm; have := h.over _ _ hm; rw [hs] at this; cases this
          · intro devs hm; have := h.returned _ hm; rw [hs] at this; cases this
        · exact rnd { s with slept := s.slept + 1 } left rfl rfl rfl rfl (by rw [hs]; simp) hcnt.1 hcnt.2.1 hcnt.2.2
      · exact h
    | datagram dg =>
      simp only [step, datagram] at ht ⊢
      split
      · exact h
      · rename_i he
        rw [if_neg he] at ht
        have hcan : (received d o { s.st with cancelled := false } dg).cancelled = false := by
          rcases received_effect d o { s.st with cancelled := false } dg with hx | hx
          · rw [hx]
          · cases hy : (received d o { s.st with cancelled := false } dg).cancelled
            · rfl
            · rcases hx.cancelled hy with hz | hz
              · cases hz
              · exact absurd hz ht
        refine ⟨?_, h.main, h.cancelled, h.count, h.over, h.returned⟩
        intro hcc
        dsimp only at hcc
        rw [hcan] at hcc
        exact h.cancel (by simpa using hcc)
    | callbackEnds host r =>
      have hm := callbackEnds_main s host r
      have e : ∃ cb m, callbackEnds s host r = { s with callbacks := cb, main := m } := by
        unfold callbackEnds
        split
        · exact ⟨_, _, rfl⟩
        · exact ⟨s.callbacks, s.main, rfl⟩
      obtain ⟨cb, m, e⟩ := e
      simp only [step]
      rw [e] at hm ⊢
      dsimp only at hm
      rcases hm with rfl | ⟨hosts, e', h1, -, -, rfl⟩
      · exact ⟨h.cancel, h.main, h.cancelled, h.count, h.over, h.returned⟩
      · refine ⟨fun hcc => ?_, h.main, fun hs => ?_, h.count, fun _ _ _ => h.over _ _ h1, fun _ hx => nomatch hx⟩
        · have := h.cancel hcc; rw [h1] at this; cases this
        · have := h.cancelled hs; rw [h1] at this; cases this
    | startTimeout => exact absurd rfl hev
    | mainRuns => exact absurd rfl hev
    | closeEnds _ => exact absurd rfl hev
    | cancelCaller => exact absurd rfl hev
    | lost => exact absurd rfl hev

theorem full_run (s : Sys) (hi : Inv o s) (h : Full packets s) (evs : List Ev) (hc : ∀ ev ∈ evs, ev ≠ .cancelCaller)
    (ht : o.target ∉ (run d o packets s evs).st.seen) : Full packets (run d o packets s evs) := by
  induction evs generalizing s with
  | nil => exact h
  | cons ev evs ih =>
    refine ih _ (inv_step d o packets hi ev) (full_step d o packets hi h ev (hc _ (by simp)) ?_) (fun e he => hc _ (by simp [he])) ht
    exact fun hx => ht (seen_run d o packets _ evs _ hx)

/-! ## Callbacks -/

theorem firstError_none {cs : List (String × Option (Except Exc Unit))} (h : firstError cs = none) (host : String) (e : Exc) :
    (host, some (.error e)) ∉ cs := by
  induction cs with
  | nil => simp
  | cons c cs ih =>
    intro hm
    rcases List.mem_cons.1 hm with rfl | hm
    · simp [firstError] at h
    · apply ih _ hm
      obtain ⟨a, x⟩ := c
      cases x with
      | none => exact h
      | some r =>
        cases r with
        | ok u => exact h
        | error e' => cases h

/-- The fate of a callback that was started during the search. -/
def Awaited (h : String) (s : Sys) : Prop :=
  h ∈ s.callbacks.map Prod.fst ∧
    match s.main with
    | .gathering hosts f => h ∈ hosts ∧ (f = none → ∀ e, (h, some (.error e)) ∉ s.callbacks)
    | .returned _ => (h, some (.ok ())) ∈ s.callbacks
    | _ => True

theorem awaited_of (h : String) (s : Sys) (hc : h ∈ s.callbacks.map Prod.fst) (hm : Searching s) : Awaited h s := by
  refine ⟨hc, ?_⟩
  rcases hm with hm | hm <;> rw [hm] <;> trivial

theorem awaited_failing (h : String) (s : Sys) (hc : h ∈ s.callbacks.map Prod.fst) (hm : s.main.failing = true) : Awaited h s := by
  refine ⟨hc, ?_⟩
  cases hx : s.main <;> rw [hx] at hm <;> first | trivial | cases hm

theorem awaited_step (h : String) (s : Sys) (ev : Ev) (ha : Awaited h s) : Awaited h (step d o packets s ev) := by
  by_cases hev : ev.main = true
  · obtain ⟨m, mc, c, h1, h2⟩ := moved d o packets s ev hev
    rw [h1]
    cases h2 with
    | same _ _ => exact ha
    | fails _ _ _ hf => exact awaited_failing h _ ha.1 hf
    | closes _ _ hf => exact awaited_failing h _ ha.1 hf
    | waits => exact ⟨ha.1, trivial⟩
    | gathers => exact ⟨ha.1, ha.1, fun hf e => firstError_none hf h e⟩
    | empty _ _ hc => have := ha.1; rw [hc] at this; cases this
    | gathered hosts hm ho =>
      obtain ⟨h3, h4⟩ := ha
      rw [hm] at h4
      refine ⟨h3, ?_⟩
      obtain ⟨⟨h', x⟩, hx, rfl⟩ := List.mem_map.1 h3
      have := List.all_eq_true.1 ho _ hx
      simp [h4.1] at this
      cases x with
      | none => cases this
      | some r =>
        cases r with
        | ok u => exact hx
        | error e => exact absurd hx (h4.2 rfl e)
    | cancels => exact ha
    | cancelsGather => exact ha
    | cancelled hosts f hm =>
      obtain ⟨h3, h4⟩ := ha
      rw [hm] at h4
      exact ⟨h3, h4.1, fun hf => nomatch hf⟩
    | lost => exact ha
  · cases ev with
    | connected => simp only [step, connected]; split <;> exact ha
    | searchRuns =>
      obtain ⟨t, k, j, h1, -⟩ := searchRuns_eq o packets s
      simp only [step]; rw [h1]; exact ha
    | datagram dg =>
      simp only [step, datagram]
      split
      · exact ha
      · obtain ⟨h3, h4⟩ := ha
        split
        · refine ⟨by dsimp only; rw [List.map_append, List.mem_append]; exact Or.inl h3, ?_⟩
          dsimp only
          split at h4
          · refine ⟨h4.1, fun hf e hx => ?_⟩
            rw [List.mem_append] at hx
            rcases hx with hx | hx
            · exact h4.2 hf e hx
            · simp at hx
          · rw [List.mem_append]
            exact Or.inl h4
          · trivial
        · exact ⟨h3, h4⟩
    | callbackEnds host r =>
      obtain ⟨h3, h4⟩ := ha
      simp only [step]
      by_cases hc : (host, none) ∈ s.callbacks
      · have hmem : ∀ x, (h, some x) ∈ s.callbacks → (h, some x) ∈ s.callbacks.map fun c => if c = (host, none) then (host, some r) else c := by
          intro x hx
          exact List.mem_map.2 ⟨_, hx, by simp⟩
        have hback : ∀ x, (h, some x) ∈ (s.callbacks.map fun c => if c = (host, none) then (host, some r) else c) →
            (h, some x) ∈ s.callbacks ∨ h = host ∧ x = r := by
          intro x hx
          obtain ⟨c, hc, he⟩ := List.mem_map.1 hx
          split at he
          · cases he; exact Or.inr ⟨rfl, rfl⟩
          · subst he; exact Or.inl hc
        have hcb : (callbackEnds s host r).callbacks = s.callbacks.map fun c => if c = (host, none) then (host, some r) else c := by
          unfold callbackEnds; rw [if_pos hc]
        refine ⟨by rw [hcb, map_fst_ends]; exact h3, ?_⟩
        rcases callbackEnds_main s host r with hm | ⟨hosts, e, h1, h2, rfl, h5⟩
        · rw [hm, hcb]
          split at h4
          · rename_i hosts f hm'
            refine ⟨h4.1, fun hf e hx => ?_⟩
            rcases hback _ hx with hx | ⟨rfl, rfl⟩
            · exact h4.2 hf e hx
            · subst hf
              unfold callbackEnds at hm
              rw [if_pos hc, hm'] at hm
              simp [h4.1] at hm
          · exact hmem _ h4
          · trivial
        · rw [h5]
          rw [h1] at h4
          exact ⟨h4.1, fun hf => nomatch hf⟩
      · have : callbackEnds s host r = s := by unfold callbackEnds; rw [if_neg hc]
        rw [this]; exact ⟨h3, h4⟩
    | startTimeout => exact absurd rfl hev
    | mainRuns => exact absurd rfl hev
    | closeEnds _ => exact absurd rfl hev
    | cancelCaller => exact absurd rfl hev
    | lost => exact absurd rfl hev

/-! ## Cancellation -/

/-- A cancellation is under way or has taken effect. -/
def Doomed (s : Sys) : Prop :=
  s.main.failing = true ∨ (s.main = .searching ∧ s.mainCancel = true) ∨
    ∃ hosts f, s.main = .gathering hosts f ∧ (s.mainCancel = true ∨ f ≠ none)

theorem doomed_cancel (s : Sys) (h : s.main.ended = false) : Doomed (step d o packets s .cancelCaller) := by
  obtain ⟨m, mc, c, h1, h2⟩ := moved d o packets s .cancelCaller rfl
  rw [h1]
  cases h2 with
  | same _ he => rw [he rfl] at h; cases h
  | fails _ _ _ hf => exact Or.inl hf
  | closes _ _ hf => exact Or.inl hf
  | cancels hm => exact Or.inr (Or.inl ⟨hm, rfl⟩)
  | cancelsGather hosts hm => exact Or.inr (Or.inr ⟨hosts, none, hm, Or.inl rfl⟩)
  | cancelled hosts f hm => exact Or.inr (Or.inr ⟨hosts, some .base, rfl, Or.inr (by simp)⟩)

theorem doomed_step (s : Sys) (ev : Ev) (h : Doomed s) (hi : Inv o s) (ht : s.main = .searching → o.target ∉ s.st.seen) :
    Doomed (step d o packets s ev) ∧ ((step d o packets s ev).main = .searching → s.main = .searching) := by
  by_cases hev : ev.main = true
  · obtain ⟨m, mc, c, h1, h2⟩ := moved d o packets s ev hev
    rw [h1]
    have fail : ∀ mc c, m.failing = true → Doomed { s with main := m, mainCancel := mc, cancel := c } ∧
        (({ s with main := m, mainCancel := mc, cancel := c } : Sys).main = .searching → s.main = .searching) := by
      intro mc c hf
      exact ⟨Or.inl hf, fun hm => by dsimp only at hm; rw [hm] at hf; cases hf⟩
    have pass : s.main = .searching → ¬ Passed s := by
      intro hm hp
      rcases h with h | ⟨-, h⟩ | ⟨_, _, h, -⟩
      · rw [hm] at h; cases h
      · rcases hp with ⟨-, hp⟩ | ⟨hp, -⟩
        · rw [h] at hp; cases hp
        · exact ht hm (hi.target hp)
      · rw [hm] at h; cases h
    have start : s.main ≠ .starting := by
      intro hm
      rcases h with h | ⟨h, -⟩ | ⟨_, _, h, -⟩ <;> rw [hm] at h <;> cases h
    cases h2 with
    | same _ _ => exact ⟨h, fun hm => hm⟩
    | fails _ _ _ hf => exact fail _ _ hf
    | closes _ _ hf => exact fail _ _ hf
    | waits hm => exact absurd hm start
    | gathers hm hp => rcases hm with hm | hm <;> first | exact absurd hm start | exact absurd hp (pass hm)
    | empty hm hp => rcases hm with hm | hm <;> first | exact absurd hm start | exact absurd hp (pass hm)
    | gathered hosts hm ho hc =>
      rcases h with h | ⟨h, -⟩ | ⟨_, _, h, h'⟩
      · rw [hm] at h; cases h
      · rw [hm] at h; cases h
      · rw [hm] at h; cases h
        rcases h' with h' | h'
        · rw [hc] at h'; cases h'
        · exact absurd rfl h'
    | cancels hm => exact ⟨Or.inr (Or.inl ⟨hm, rfl⟩), fun hm => hm⟩
    | cancelsGather hosts hm => exact ⟨Or.inr (Or.inr ⟨hosts, none, hm, Or.inl rfl⟩), fun hm => hm⟩
    | cancelled hosts f hm => exact ⟨Or.inr (Or.inr ⟨hosts, some .base, rfl, Or.inr (by simp)⟩), fun hm => nomatch hm⟩
    | lost => exact ⟨h, fun hm => hm⟩
  · obtain ⟨h1, h2⟩ := step_main d o packets s ev (by simpa using hev)
    rcases h1 with h1 | ⟨hosts, host, e, h3, -, -, h1⟩
    · unfold Doomed
      rw [h1, h2]
      exact ⟨h, fun hm => hm⟩
    · refine ⟨Or.inr (Or.inr ⟨_, _, h1, Or.inr (by simp)⟩), fun hm => ?_⟩
      rw [h1] at hm; cases hm

theorem doomed_run (evs : List Ev) (s : Sys) (h : Doomed s) (hi : Inv o s)
    (ht : s.main = .searching → o.target ∉ (run d o packets s evs).st.seen) : Doomed (run d o packets s evs) := by
  induction evs generalizing s with
  | nil => exact h
  | cons ev evs ih =>
    have hs : s.main = .searching → o.target ∉ s.st.seen := fun hm hx =>
      ht hm (seen_run d o packets _ evs _ (seen_step d o packets s ev _ hx))
    obtain ⟨h1, h2⟩ := doomed_step d o packets s ev h hi hs
    exact ih _ h1 (inv_step d o packets hi ev) (fun hm => ht (h2 hm))

/-! ## The end -/

theorem stage_ended {m : Main} (h : m.ended = true) : m.stage = 0 := by
  cases m <;> first | rfl | cases h

theorem ended_stage {m : Main} (h : m.stage = 0) : m.ended = true := by
  cases m <;> first | rfl | cases h

theorem ended_step (s : Sys) (ev : Ev) (h : s.main.ended = true) : (step d o packets s ev).main = s.main := by
  by_cases hev : ev.main = true
  · obtain ⟨m, mc, c, h1, h2⟩ := moved d o packets s ev hev
    rw [h1]
    cases h2 with
    | same _ _ => rfl
    | fails _ _ _ _ hs => rw [stage_ended h] at hs; cases hs
    | closes _ _ _ hs => rw [stage_ended h] at hs; cases hs
    | waits hm => rw [hm] at h; cases h
    | gathers hm => rcases hm with hm | hm <;> rw [hm] at h <;> cases h
    | empty hm => rcases hm with hm | hm <;> rw [hm] at h <;> cases h
    | gathered _ hm => rw [hm] at h; cases h
    | cancels hm => rfl
    | cancelsGather _ hm => rfl
    | cancelled _ _ hm => rw [hm] at h; cases h
    | lost => rfl
  · rcases (step_main d o packets s ev (by simpa using hev)).1 with h1 | ⟨_, _, _, hm, -⟩
    · exact h1
    · rw [hm] at h; cases h

/-- Nothing is sent any more. -/
def Quiet (k : Nat) (s : Sys) : Prop :=
  s.main.ended = true ∧ s.sent = k ∧ (s.search.active = false ∨ s.cancel = true)

theorem quiet_step (k : Nat) (s : Sys) (ev : Ev) (h : Quiet k s) : Quiet k (step d o packets s ev) := by
  obtain ⟨h1, h2, h3⟩ := h
  refine ⟨by rw [ended_step d o packets s ev h1]; exact h1, ?_⟩
  by_cases hev : ev.main = true
  · obtain ⟨m, mc, c, e1, e2⟩ := moved d o packets s ev hev
    rw [e1]
    refine ⟨h2, ?_⟩
    dsimp only
    have keep : ∀ b : Bool, s.search.active = false ∨ (s.cancel || b) = true := by
      intro b
      rcases h3 with h3 | h3
      · exact Or.inl h3
      · exact Or.inr (by rw [h3]; rfl)
    cases e2 <;> first | exact h3 | exact keep _
  · cases ev with
    | connected =>
      simp only [step, connected]
      rw [if_neg (by simp [h1])]
      exact ⟨h2, h3⟩
    | searchRuns =>
      simp only [step, searchRuns]
      split
      · rename_i hs
        rcases h3 with h3 | h3
        · rw [hs] at h3; cases h3
        · rw [if_pos h3]; exact ⟨h2, Or.inl rfl⟩
      · rename_i hs
        rcases h3 with h3 | h3
        · rw [hs] at h3; cases h3
        · rw [if_pos h3]; exact ⟨h2, Or.inl rfl⟩
      · exact ⟨h2, h3⟩
    | datagram dg => simp only [step, datagram]; rw [if_pos h1]; exact ⟨h2, h3⟩
    | callbackEnds host r => simp only [step, callbackEnds]; split <;> exact ⟨h2, h3⟩
    | startTimeout => exact absurd rfl hev
    | mainRuns => exact absurd rfl hev
    | closeEnds _ => exact absurd rfl hev
    | cancelCaller => exact absurd rfl hev
    | lost => exact absurd rfl hev

/-- The search sends nothing more, whether or not the call has ended. -/
def Hushed (k : Nat) (s : Sys) : Prop := s.sent = k ∧ s.search ≠ .none ∧ (s.search.active = false ∨ s.cancel = true)

theorem hushed_step (k : Nat) (s : Sys) (ev : Ev) (h : Hushed k s) : Hushed k (step d o packets s ev) := by
  obtain ⟨h1, h2, h3⟩ := h
  have keep : ∀ b : Bool, s.search.active = false ∨ (s.cancel || b) = true := by
    intro b
    rcases h3 with h3 | h3
    · exact Or.inl h3
    · exact Or.inr (by rw [h3]; rfl)
  by_cases hev : ev.main = true
  · obtain ⟨m, mc, c, e1, e2⟩ := moved d o packets s ev hev
    rw [e1]
    refine ⟨h1, h2, ?_⟩
    dsimp only
    cases e2 <;> first | exact h3 | exact keep _
  · cases ev with
    | connected =>
      simp only [step, connected]
      rw [if_neg (fun h => h2 h.1)]
      exact ⟨h1, h2, h3⟩
    | searchRuns =>
      simp only [step, searchRuns]
      split
      · rename_i hs
        rcases h3 with h3 | h3
        · rw [hs] at h3; cases h3
        · rw [if_pos h3]; exact ⟨h1, by simp, Or.inl rfl⟩
      · rename_i hs
        rcases h3 with h3 | h3
        · rw [hs] at h3; cases h3
        · rw [if_pos h3]; exact ⟨h1, by simp, Or.inl rfl⟩
      · exact ⟨h1, h2, h3⟩
    | datagram dg =>
      simp only [step, datagram]
      split
      · exact ⟨h1, h2, h3⟩
      · exact ⟨h1, h2, keep _⟩
    | callbackEnds host r => simp only [step, callbackEnds]; split <;> exact ⟨h1, h2, h3⟩
    | startTimeout => exact absurd rfl hev
    | mainRuns => exact absurd rfl hev
    | closeEnds _ => exact absurd rfl hev
    | cancelCaller => exact absurd rfl hev
    | lost => exact absurd rfl hev

/-- Nothing is sent once the target has been seen. -/
theorem sent_step (s : Sys) (ev : Ev) (h : o.target ∈ s.st.seen) : (step d o packets s ev).sent = s.sent := by
  have rnd : ∀ (s' : Sys) (n : Nat), s'.st = s.st → s'.sent = s.sent → (round o s' n).sent = s.sent := by
    intro s' n e1 e2
    obtain ⟨t, k, h1, -, h2⟩ := round_eq o s' n
    rw [h1]
    rcases h2 with ⟨-, -, rfl⟩ | ⟨_, -, -, -, rfl⟩ | ⟨_, -, h2, -⟩
    · exact e2
    · exact e2
    · rw [e1] at h2; exact absurd h h2
  by_cases hev : ev.main = true
  · obtain ⟨m, mc, c, h1, -⟩ := moved d o packets s ev hev
    rw [h1]
  · cases ev with
    | connected => simp only [step, connected]; split <;> rfl
    | searchRuns =>
      simp only [step, searchRuns]
      split
      · split
        · rfl
        · split
          · rfl
          · exact rnd _ _ rfl rfl
      · split
        · rfl
        · exact rnd _ _ rfl rfl
      · rfl
    | datagram dg => simp only [step, datagram]; split <;> rfl
    | callbackEnds host r => simp only [step, callbackEnds]; split <;> rfl
    | startTimeout => exact absurd rfl hev
    | mainRuns => exact absurd rfl hev
    | closeEnds _ => exact absurd rfl hev
    | cancelCaller => exact absurd rfl hev
    | lost => exact absurd rfl hev

/-- A call that got past the search has no search running. -/
def Past (s : Sys) : Prop :=
  (∀ hosts f, s.main = .gathering hosts f → s.search.ended = true) ∧ (∀ devs, s.main = .returned devs → s.search.ended = true)

theorem ended_search (s : Sys) (h : s.search.ended = true) : searchRuns o packets s = s := by
  unfold searchRuns
  split
  · rename_i hs; rw [hs] at h; cases h
  · rename_i hs; rw [hs] at h; cases h
  · rfl

theorem past_step (s : Sys) (ev : Ev) (h : Past s) : Past (step d o packets s ev) := by
  by_cases hev : ev.main = true
  · obtain ⟨m, mc, c, e1, e2⟩ := moved d o packets s ev hev
    rw [e1]
    have hp : Passed s → s.search.ended = true := by
      rintro (⟨hp, -⟩ | ⟨-, hp, -⟩)
      · rw [hp]; rfl
      · exact hp
    unfold Past
    dsimp only
    cases e2 with
    | same _ _ => exact h
    | fails _ _ _ hf => exact ⟨fun _ _ hm => (by rw [hm] at hf; cases hf), fun _ hm => (by rw [hm] at hf; cases hf)⟩
    | closes _ _ hf => exact ⟨fun _ _ hm => (by rw [hm] at hf; cases hf), fun _ hm => (by rw [hm] at hf; cases hf)⟩
    | waits => exact ⟨fun _ _ hm => (nomatch hm), fun _ hm => (nomatch hm)⟩
    | gathers _ hq => exact ⟨fun _ _ _ => hp hq, fun _ hm => (nomatch hm)⟩
    | empty _ hq => exact ⟨fun _ _ hm => (nomatch hm), fun _ _ => hp hq⟩
    | gathered _ hm => exact ⟨fun _ _ hm => (nomatch hm), fun _ _ => h.1 _ _ hm⟩
    | cancels => exact h
    | cancelsGather => exact h
    | cancelled _ _ hm => exact ⟨fun _ _ _ => h.1 _ _ hm, fun _ hm => (nomatch hm)⟩
    | lost => exact h
  · have hmain := (step_main d o packets s ev (by simpa using hev)).1
    have hsearch : s.search.ended = true → (step d o packets s ev).search.ended = true := by
      intro he
      cases ev with
      | connected =>
        simp only [step, connected]
        split
        · rename_i hn; rw [hn.1] at he; cases he
        · exact he
      | searchRuns => simp only [step]; rw [ended_search o packets s he]; exact he
      | datagram dg => simp only [step, datagram]; split <;> exact he
      | callbackEnds host r => simp only [step, callbackEnds]; split <;> exact he
      | startTimeout => exact absurd rfl hev
      | mainRuns => exact absurd rfl hev
      | closeEnds _ => exact absurd rfl hev
      | cancelCaller => exact absurd rfl hev
      | lost => exact absurd rfl hev
    rcases hmain with hm | ⟨hosts, _, _, hm, -, -, hm'⟩
    · exact ⟨fun _ _ hx => hsearch (h.1 _ _ (hm ▸ hx)), fun _ hx => hsearch (h.2 _ (hm ▸ hx))⟩
    · exact ⟨fun _ _ _ => hsearch (h.1 _ _ hm), fun _ hx => by rw [hm'] at hx; cases hx⟩

/-! ## Closing -/

/-- How far the closing of devices is. -/
def Closing (s : Sys) : Prop :=
  match s.main with
  | .closing e closed ip left n => (e.isKasa = true ∨ e = .base) ∧ ∃ pre rest, s.st.discovered = pre ++ rest ∧
      pre.map Prod.fst = closed ++ ip :: left.map Prod.fst ∧ n = pre.length
  | .raised e closed => e.isKasa = true ∨ e = .base → closed = s.st.discovered.keys
  | _ => True

theorem closing_next (s : Sys) (e : Exc) (closed : List String) (left : Dict String Dev) (n : Nat)
    (he : e.isKasa = true ∨ e = .base) (pre rest : Dict String Dev) (h1 : s.st.discovered = pre ++ rest)
    (h2 : pre.map Prod.fst = closed ++ left.map Prod.fst) (h3 : n = pre.length) : Closing (closeNext s e closed left n) := by
  unfold closeNext
  split
  · exact fun h => by rcases h with h | h <;> cases h
  · rename_i hn
    split
    · intro _
      have : rest = [] := by
        have hl : s.st.discovered.length = n := by simpa using hn
        rw [h1, h3, List.length_append] at hl
        exact List.eq_nil_of_length_eq_zero (by omega)
      show closed = s.st.discovered.keys
      rw [h1, this, List.append_nil]
      unfold Dict.keys
      rw [h2]; simp
    · split
      · exact fun h => by rcases h with h | h <;> cases h
      · exact ⟨he, pre, rest, h1, by rw [h2]; rfl, h3⟩

theorem closing_fail (s : Sys) (e : Exc) : Closing (fail s e) := by
  unfold fail
  split
  · exact closing_next s e [] _ _ (by assumption) s.st.discovered [] (by simp) (by simp) rfl
  · exact fun h => absurd h (by assumption)

theorem closing_not {s : Sys} (h : s.main.failing = false) : Closing s := by
  unfold Closing
  cases hm : s.main <;> rw [hm] at h <;> first | trivial | cases h

theorem closing_searched (s : Sys) : Closing (searched s) := by
  have g : ∀ s, Closing (gather s) := by
    intro s; unfold gather; split <;> exact closing_not rfl
  unfold searched
  split
  · split
    · exact g _
    · exact closing_fail _ _
  · split
    · exact closing_fail _ _
    · exact g _

theorem closing_step (s : Sys) (ev : Ev) (hi : Inv o s) (h : Closing s) (hw : ClosesWell d o packets s [ev]) :
    Closing (step d o packets s ev) := by
  cases ev with
  | connected => simp only [step, connected]; split <;> exact h
  | searchRuns =>
    obtain ⟨t, k, j, h1, -⟩ := searchRuns_eq o packets s
    simp only [step]; rw [h1]; exact h
  | datagram dg =>
    simp only [step, datagram]
    split
    · exact h
    · rename_i hend
      have hd : ∃ more, (received d o { s.st with cancelled := false } dg).discovered = s.st.discovered ++ more := by
        rcases received_effect d o { s.st with cancelled := false } dg with hx | hx
        · rw [hx]; exact ⟨[], by simp⟩
        · rcases hx.discovered with ⟨hy, -⟩ | ⟨dev, hy, -⟩
          · rw [hy]; exact ⟨[], by simp⟩
          · rw [hy]
            refine ⟨[(dg.ip, dev)], Discover.set_new ?_⟩
            exact Dict.get?_eq_none_iff.2 fun hk => hx.fresh (hi.known _ hk)
      obtain ⟨more, hd⟩ := hd
      unfold Closing at h ⊢
      dsimp only
      split at h
      · obtain ⟨he, pre, rest, h1, h2, h3⟩ := h
        exact ⟨he, pre, rest ++ more, by rw [hd, h1, List.append_assoc], h2, h3⟩
      · rename_i hm; rw [hm] at hend; exact absurd rfl hend
      · trivial
  | callbackEnds host r =>
    have hst := step_st d o packets s (.callbackEnds host r) (fun _ h => nomatch h)
    rcases callbackEnds_main s host r with hm | ⟨_, _, hm', -, -, hm⟩
    · unfold Closing at h ⊢
      rw [hst]
      simp only [step]
      rw [hm]; exact h
    · apply closing_not
      simp only [step]
      rw [hm]; rfl
  | startTimeout =>
    simp only [step, startTimeout]
    split
    · exact fun h => by rcases h with h | h <;> cases h
    · exact h
  | mainRuns =>
    simp only [step, mainRuns]
    split
    · split
      · exact h
      · split
        · exact closing_searched s
        · exact closing_not rfl
    · split
      · exact closing_searched s
      · exact h
    · exact closing_fail _ _
    · split
      · split
        · exact closing_fail _ _
        · exact closing_not rfl
      · exact h
    · exact h
  | closeEnds r =>
    simp only [step, closeEnds]
    split
    · rename_i hm
      unfold Closing at h
      rw [hm] at h
      obtain ⟨he, pre, rest, h1, h2, h3⟩ := h
      exact closing_next s _ _ _ _ he pre rest h1 (by rw [h2]; simp) h3
    · exact hw.1.elim
    · exact h
  | cancelCaller =>
    simp only [step, cancelCaller]
    split
    · exact closing_fail _ _
    · rename_i hm; apply closing_not; dsimp only; rw [hm]; rfl
    · rename_i hm
      split
      · exact closing_not rfl
      · apply closing_not; dsimp only; rw [hm]; rfl
    · exact closing_not rfl
    · rename_i hm
      exact absurd hm (hw.1 _ _ _ _ _)
    · exact h
  | lost => simp only [step, lost]; split <;> exact h

theorem closing_run (evs : List Ev) (s : Sys) (hi : Inv o s) (h : Closing s) (hw : ClosesWell d o packets s evs) :
    Closing (run d o packets s evs) := by
  induction evs generalizing s with
  | nil => exact h
  | cons ev evs ih => exact ih _ (inv_step d o packets hi ev) (closing_step d o packets s ev hi h ⟨hw.1, trivial⟩) hw.2

end
end Kasa.DiscoverTasks
