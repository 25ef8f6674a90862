import Verif.Spec.Firmware
/-!
# C65: a firmware update is started once, on request, and watched until it ends
-/

namespace Kasa.Firmware
open PyM FirmwareSpec

/-! ## Helper lemmas -/

theorem polls_append (a b : List Event) : polls (a ++ b) = polls a ++ polls b := by
  induction a with
  | nil => rfl
  | cons x a ih => cases x <;> simp [polls, ih]

theorem progress_append (a b : List Event) : progress (a ++ b) = progress a ++ progress b := by
  induction a with
  | nil => rfl
  | cons x a ih => cases x <;> simp [progress, ih]

theorem downloads_append (a b : List Event) : downloads (a ++ b) = downloads a + downloads b := by
  induction a with
  | nil => simp [downloads]
  | cons x a ih => cases x <;> simp [downloads, ih] <;> omega

theorem slept_append (a b : List Event) : slept (a ++ b) = slept a + slept b := by
  induction a with
  | nil => simp [slept]
  | cons x a ih => cases x <;> simp [slept, ih] <;> omega

theorem states_append (a b : List (Except Exc State)) : states (a ++ b) = states a ++ states b := by
  induction a with
  | nil => rfl
  | cons x a ih => cases x <;> simp [states, ih]

section
variable {σ : Type} (env : Env σ)

/-- What the loop adds to the log, and how it ends. -/
structure Good (callback : Bool) (left : Nat) (s : St σ) (out : Except Exc State × St σ) (new : List Event) : Prop where
  log : out.2.log = s.log ++ new
  info : out.2.info = s.info
  ends : Ends (polls new) out.1
  once : downloads new = 0
  told : progress new = if callback then states (polls new) else []
  time : slept new ≤ left
  count : (polls new).length * 500 ≤ slept new

theorem ends_cons {x : Except Exc State} {l : List (Except Exc State)} {r : Except Exc State} (hx : Busy x)
    (h : Ends l r) : Ends (x :: l) r := by
  have hall : ∀ {b : List (Except Exc State)}, (∀ y ∈ b, Busy y) → ∀ y ∈ x :: b, Busy y := by
    intro b hb y hy
    rcases List.mem_cons.1 hy with rfl | hy
    · exact hx
    · exact hb y hy
  rcases h with ⟨b, st, rfl, h2, h3⟩ | ⟨h1, h2⟩ | ⟨b, e, rfl, h2, h3⟩
  · exact Or.inl ⟨x :: b, st, rfl, hall h2, h3⟩
  · exact Or.inr (Or.inl ⟨hall h1, h2⟩)
  · exact Or.inr (Or.inr ⟨x :: b, e, rfl, hall h2, h3⟩)

/-- The part of the log one round adds. -/
def round (callback : Bool) (r : Except Exc State) : List Event :=
  [.slept 500, .polled r] ++ (match r with
    | .ok st => if callback then [.progress st] else []
    | .error _ => [])

theorem round_polls (callback : Bool) (r : Except Exc State) : polls (round callback r) = [r] := by
  unfold round
  cases r with
  | error e => rfl
  | ok st => cases callback <;> rfl

theorem round_progress (callback : Bool) (r : Except Exc State) :
    progress (round callback r) = if callback then states [r] else [] := by
  unfold round
  cases r with
  | error e => cases callback <;> rfl
  | ok st => cases callback <;> rfl

theorem round_downloads (callback : Bool) (r : Except Exc State) : downloads (round callback r) = 0 := by
  unfold round
  cases r with
  | error e => rfl
  | ok st => cases callback <;> rfl

theorem round_slept (callback : Bool) (r : Except Exc State) : slept (round callback r) = 500 := by
  unfold round
  cases r with
  | error e => rfl
  | ok st => cases callback <;> rfl

theorem count_step {n k nap c : Nat} (h : n * c ≤ k) : (n + 1) * c ≤ c + nap + k := by
  rw [Nat.succ_mul]
  omega

theorem count_step' {n k c : Nat} (h : n * c ≤ k) : (n + 1) * c ≤ c + k := by
  rw [Nat.succ_mul]
  omega

/-- After a round that does not end the update, and perhaps a sleep, it goes on. -/
theorem good_cons {callback : Bool} {left left' : Nat} {s t : St σ} {r : Except Exc State} {nap : Nat}
    {out : Except Exc State × St σ} {new : List Event} (hr : Busy r)
    (ht : t.log = s.log ++ (round callback r ++ [.slept nap])) (hi : t.info = s.info) (hl : left' + 500 + nap ≤ left)
    (h : Good callback left' t out new) : Good callback left s out (round callback r ++ [.slept nap] ++ new) := by
  obtain ⟨h1, h2, h3, h4, h5, h6, h7⟩ := h
  have hp : polls (round callback r ++ [.slept nap] ++ new) = r :: polls new := by
    rw [polls_append, polls_append, round_polls]
    rfl
  have hs : slept (round callback r ++ [.slept nap] ++ new) = 500 + nap + slept new := by
    rw [slept_append, slept_append, round_slept]
    rfl
  refine ⟨?_, h2.trans hi, ?_, ?_, ?_, ?_, ?_⟩
  · rw [h1, ht, List.append_assoc]
  · rw [hp]; exact ends_cons hr h3
  · rw [downloads_append, downloads_append, round_downloads, h4]
    rfl
  · rw [progress_append, progress_append, round_progress, h5, hp]
    cases callback with
    | false => rfl
    | true =>
      cases r with
      | ok st => rfl
      | error e => rfl
  · rw [hs]; omega
  · have hlen : (r :: polls new).length = (polls new).length + 1 := rfl
    rw [hp, hs, hlen]
    exact count_step h7

theorem good_cons' {callback : Bool} {left left' : Nat} {s t : St σ} {r : Except Exc State}
    {out : Except Exc State × St σ} {new : List Event} (hr : Busy r)
    (ht : t.log = s.log ++ round callback r) (hi : t.info = s.info) (hl : left' + 500 ≤ left)
    (h : Good callback left' t out new) : Good callback left s out (round callback r ++ new) := by
  obtain ⟨h1, h2, h3, h4, h5, h6, h7⟩ := h
  have hp : polls (round callback r ++ new) = r :: polls new := by
    rw [polls_append, round_polls]
    rfl
  have hs : slept (round callback r ++ new) = 500 + slept new := by
    rw [slept_append, round_slept]
  refine ⟨?_, h2.trans hi, ?_, ?_, ?_, ?_, ?_⟩
  · rw [h1, ht, List.append_assoc]
  · rw [hp]; exact ends_cons hr h3
  · rw [downloads_append, round_downloads, h4]
  · rw [progress_append, round_progress, h5, hp]
    cases callback with
    | false => rfl
    | true =>
      cases r with
      | ok st => rfl
      | error e => rfl
  · rw [hs]; omega
  · have hlen : (r :: polls new).length = (polls new).length + 1 := rfl
    rw [hp, hs, hlen]
    exact count_step' h7

/-- A round after which the loop ends. -/
theorem good_last {callback : Bool} {left : Nat} {s t : St σ} {r result : Except Exc State}
    (ht : t.log = s.log ++ round callback r) (hi : t.info = s.info) (hl : 500 ≤ left) (he : Ends [r] result) :
    Good callback left s (result, t) (round callback r) := by
  refine ⟨ht, hi, ?_, round_downloads _ _, ?_, ?_, ?_⟩
  · rw [round_polls]; exact he
  · rw [round_progress, round_polls]
  · rw [round_slept]; exact hl
  · rw [round_slept, round_polls]; simp

theorem loop_good (callback : Bool) (left : Nat) (s : St σ) :
    ∃ new, Good callback left s (loop env callback left s) new := by
  induction left using Nat.strongRecOn generalizing s with
  | ind left ih =>
    rw [loop]
    by_cases h500 : left ≤ 500
    · rw [if_pos h500]
      exact ⟨[], by simp [expire], rfl, Or.inr (Or.inl ⟨by simp [polls], rfl⟩), rfl, by cases callback <;> rfl,
        by simp [slept], by simp [polls]⟩
    · rw [if_neg h500]
      simp only
      by_cases htook : left - 500 ≤ (env.poll s.world).1.1
      · have htook' : left - 500 ≤ (env.poll (s.add (.slept 500)).world).1.1 := htook
        rw [if_pos htook']
        exact ⟨[.slept 500], rfl, rfl, Or.inr (Or.inl ⟨by simp [polls], rfl⟩), rfl, by cases callback <;> rfl,
          by simp [slept]; omega, by simp [polls]⟩
      · have htook' : ¬ left - 500 ≤ (env.poll (s.add (.slept 500)).world).1.1 := htook
        rw [if_neg htook']
        have hw : (s.add (.slept 500)).world = s.world := rfl
        rw [hw]
        generalize env.poll s.world = answer at *
        obtain ⟨⟨took, r⟩, w⟩ := answer
        simp only at htook ⊢
        cases r with
        | error e =>
          simp only
          cases he : e.isException with
          | true =>
            obtain ⟨new, hnew⟩ := ih (left - 500 - took) (by omega)
              (St.add { s.add (.slept 500) with world := w } (.polled (.error e)))
            refine ⟨_, good_cons' (r := .error e) he ?_ ?_ ?_ hnew⟩
            · simp [St.add, round]
            · rfl
            · omega
          | false =>
            refine ⟨_, good_last (r := .error e) ?_ rfl (by omega) (Or.inr (Or.inr ⟨[], e, rfl, by simp, he, rfl⟩))⟩
            simp [St.add, round]
        | ok st =>
          simp only
          have hlog : ∀ t : St σ, t = (if callback = true then
              (St.add { s.add (.slept 500) with world := w } (.polled (.ok st))).add (.progress st)
              else St.add { s.add (.slept 500) with world := w } (.polled (.ok st))) →
              t.log = s.log ++ round callback (.ok st) ∧ t.info = s.info := by
            rintro t rfl
            cases callback <;> simp [St.add, round]
          generalize (if callback = true then
              (St.add { s.add (.slept 500) with world := w } (.polled (.ok st))).add (.progress st)
              else St.add { s.add (.slept 500) with world := w } (.polled (.ok st))) = t at hlog ⊢
          obtain ⟨hlog, hinfo⟩ := hlog t rfl
          by_cases h0 : st.status = 0
          · rw [if_pos h0]
            exact ⟨_, good_last hlog hinfo (by omega) (Or.inl ⟨[], st, rfl, by simp, by omega, rfl⟩)⟩
          · rw [if_neg h0]
            by_cases h2 : st.status = 2
            · rw [if_pos h2]
              obtain ⟨new, hnew⟩ := ih (left - 500 - took) (by omega) t
              exact ⟨_, good_cons' (r := .ok st) (show 0 < st.status by omega) hlog hinfo (by omega) hnew⟩
            · rw [if_neg h2]
              by_cases h3 : st.status = 3
              · rw [if_pos h3]
                by_cases hup : left - 500 - took ≤ st.upgradeTime.toNat * 1000
                · rw [if_pos hup]
                  refine ⟨_, good_last (r := .ok st) hlog hinfo (by omega) (Or.inr (Or.inl ⟨?_, rfl⟩))⟩
                  intro x hx
                  rw [List.mem_singleton.1 hx]
                  show 0 < st.status
                  omega
                · rw [if_neg hup]
                  obtain ⟨new, hnew⟩ := ih (left - 500 - took - st.upgradeTime.toNat * 1000) (by omega)
                    (t.add (.slept (st.upgradeTime.toNat * 1000)))
                  refine ⟨_, good_cons (r := .ok st) (nap := st.upgradeTime.toNat * 1000)
                    (left' := left - 500 - took - st.upgradeTime.toNat * 1000) (show 0 < st.status by omega) ?_
                    (show (t.add _).info = s.info from hinfo) (by omega) hnew⟩
                  simp [St.add, hlog]
              · rw [if_neg h3]
                by_cases hneg : st.status < 0
                · rw [if_pos hneg]
                  exact ⟨_, good_last hlog hinfo (by omega) (Or.inl ⟨[], st, rfl, by simp, by omega, rfl⟩)⟩
                · rw [if_neg hneg]
                  obtain ⟨new, hnew⟩ := ih (left - 500 - took) (by omega) t
                  exact ⟨_, good_cons' (r := .ok st) (show 0 < st.status by omega) hlog hinfo (by omega) hnew⟩

/-! ## The properties -/

/-- **C65** Without a successful check, without a cloud connection, or when the last check found nothing new, an update is
refused with a `KasaException`, and nothing is sent to the device: its state and the log stay as they were. -/
theorem C65_refused (cloud callback : Bool) (s : St σ)
    (h : s.info = none ∨ cloud = false ∨ ∃ i, s.info = some i ∧ i.status = 0) :
    update env cloud callback s = (.error .kasa, s) := by
  unfold update
  rw [bind_apply]
  show (match s.info with
    | none => raise .kasa
    | some _ => if available cloud s.info = some true then do download env; loop env callback 300000
        else raise .kasa : PyM (St σ) State) s = _
  cases hi : s.info with
  | none => rfl
  | some i =>
    have hav : available cloud (some i) ≠ some true := by
      rcases h with h | rfl | ⟨j, hj, h0⟩
      · rw [hi] at h; cases h
      · simp [available]
      · rw [hi] at hj
        cases hj
        cases cloud <;> simp [available, Info.updateAvailable, h0]
    simp only [if_neg hav]
    rfl

theorem update_run (callback : Bool) (s : St σ) (i : Info) (hi : s.info = some i) (hs : i.status ≠ 0) :
    update env true callback s = (match env.download s.world with
      | (.ok _, w) => loop env callback 300000 (St.add { s with world := w } .download)
      | (.error e, w) => (.error e, St.add { s with world := w } .download)) := by
  unfold update
  rw [bind_apply]
  show (match s.info with
    | none => raise .kasa
    | some _ => if available true s.info = some true then do download env; loop env callback 300000
        else raise .kasa : PyM (St σ) State) s = _
  rw [hi]
  have hav : available true (some i) = some true := by
    simp [available, Info.updateAvailable, hs]
  simp only [if_pos hav]
  refine (bind_apply (download env) (fun _ => (loop env callback 300000 : PyM (St σ) State)) s).trans ?_
  unfold download
  rcases env.download s.world with ⟨_ | _, w⟩
  · simp [hi]
  · simp [hi]

/-- **C65** When a check found an update and the device is connected to the cloud: if the device refuses to start, its
error is raised, after one request to start and no question about the progress. -/
theorem C65_not_started (callback : Bool) (s : St σ) (i : Info) (hi : s.info = some i) (hs : i.status ≠ 0) (e : Exc)
    (hd : (env.download s.world).1 = .error e) :
    (update env true callback s).1 = .error e ∧ (update env true callback s).2.log = s.log ++ [.download] := by
  rw [update_run env callback s i hi hs]
  rcases hdl : env.download s.world with ⟨r, w⟩
  rw [hdl] at hd
  cases hd
  exact ⟨rfl, rfl⟩

/-- **C65** Otherwise the device is told to start exactly once, before anything else; then it is asked how it goes until it
first says that it is idle or failed, which is what the caller gets, and every earlier answer was `busy` or missing; or
until the time is up, which is a `TimeoutError`; or until the task is cancelled.  `progress_cb` is given every state the
device reported, in order, once.  The update sleeps at most five minutes and asks at most 600 times. -/
theorem C65_watched (callback : Bool) (s : St σ) (i : Info) (hi : s.info = some i) (hs : i.status ≠ 0)
    (hd : (env.download s.world).1 = .ok ()) :
    ∃ new, (update env true callback s).2.log = s.log ++ .download :: new ∧
      downloads new = 0 ∧
      Ends (polls new) (update env true callback s).1 ∧
      progress new = (if callback then states (polls new) else []) ∧
      slept new ≤ 300000 ∧ (polls new).length ≤ 600 ∧
      (update env true callback s).2.info = some i := by
  rw [update_run env callback s i hi hs]
  rcases hdl : env.download s.world with ⟨r, w⟩
  rw [hdl] at hd
  cases hd
  obtain ⟨new, h⟩ := loop_good env callback 300000 (St.add { s with world := w } .download)
  refine ⟨new, ?_, h.once, h.ends, h.told, h.time, ?_, h.info.trans hi⟩
  · rw [h.log]
    simp [St.add]
  · have h1 := h.time
    have h2 := h.count
    have h3 : (polls new).length * 500 ≤ 600 * 500 := Nat.le_trans h2 h1
    exact Nat.le_of_mul_le_mul_right h3 (by decide)

/-- **C65** An update that returns was started, and returns the last state the device reported, which is not a busy one. -/
theorem C65_returns (cloud callback : Bool) (s : St σ) (st : State)
    (h : (update env cloud callback s).1 = .ok st) :
    (env.download s.world).1 = .ok () ∧ st.status ≤ 0 ∧
      (polls (update env cloud callback s).2.log).getLast? = some (.ok st) := by
  by_cases href : s.info = none ∨ cloud = false ∨ ∃ i, s.info = some i ∧ i.status = 0
  · rw [C65_refused env cloud callback s href] at h
    cases h
  · obtain ⟨i, hi⟩ : ∃ i, s.info = some i := by
      cases hi : s.info with
      | none => exact absurd (Or.inl hi) href
      | some i => exact ⟨i, rfl⟩
    have hc : cloud = true := by
      cases cloud with
      | true => rfl
      | false => exact absurd (Or.inr (Or.inl rfl)) href
    subst hc
    have hs : i.status ≠ 0 := fun h0 => href (Or.inr (Or.inr ⟨i, hi, h0⟩))
    cases hd : (env.download s.world).1 with
    | error e =>
      rw [(C65_not_started env callback s i hi hs e hd).1] at h
      cases h
    | ok u =>
      obtain ⟨new, hlog, _, hends, _⟩ := C65_watched env callback s i hi hs hd
      refine ⟨rfl, ?_⟩
      rw [h] at hends
      rcases hends with ⟨b, st', hp, _, hle, hr⟩ | ⟨_, hr⟩ | ⟨_, _, _, _, _, hr⟩
      · cases hr
        refine ⟨hle, ?_⟩
        rw [hlog, polls_append]
        show (polls s.log ++ polls new).getLast? = _
        rw [hp, ← List.append_assoc, List.getLast?_concat]
      · cases hr
      · cases hr

/-- **C65** A check raises no `Exception`.  What it returns is what the module knows from then on: a failed check makes it
forget what an earlier one found.  It does not start anything. -/
theorem C65_check (s : St σ) :
    (check env s).2.log = s.log ∧
      (match (check env s).1 with
        | .ok r => (check env s).2.info = r ∧ (∀ i, r = some i ↔ (env.latest s.world).1 = .ok i)
        | .error e => e.isException = false ∧ (check env s).2.info = s.info) := by
  unfold check
  rcases env.latest s.world with ⟨e | i, w⟩
  · simp only
    cases he : e.isException with
    | true =>
      rw [if_pos rfl]
      exact ⟨rfl, rfl, fun i => ⟨fun h => (by cases h), fun h => (by cases h)⟩⟩
    | false =>
      rw [if_neg (by decide)]
      exact ⟨rfl, he, rfl⟩
  · exact ⟨rfl, rfl, fun j => ⟨fun h => (by cases h; rfl), fun h => (by cases h; rfl)⟩⟩

/-- **C65** After a check that failed, an update is refused, whatever was known before. -/
theorem C65_failed_check (cloud callback : Bool) (s : St σ) (e : Exc) (h : (env.latest s.world).1 = .error e)
    (he : e.isException = true) :
    ((do let _ ← check env; update env cloud callback) s).1 = .error .kasa ∧
      ((do let _ ← check env; update env cloud callback) s).2.log = s.log := by
  have hc : check env s = (.ok none, { s with world := (env.latest s.world).2, info := none }) := by
    unfold check
    rcases hl : env.latest s.world with ⟨r, w⟩
    rw [hl] at h
    cases h
    simp only [he]
    rfl
  rw [bind_apply, hc]
  show (update env cloud callback _).1 = _ ∧ (update env cloud callback _).2.log = _
  rw [C65_refused env cloud callback _ (Or.inl rfl)]
  exact ⟨rfl, rfl⟩

/-- **C65** (what the code does not do) A device that is still idle half a second after the request, or whose update
failed, ends the watch at once: the caller gets the state back as a normal result, and no exception says that the firmware
was not updated. -/
theorem C65_not_raised (callback : Bool) (s : St σ) (i : Info) (hi : s.info = some i) (hs : i.status ≠ 0) (w : σ)
    (hd : env.download s.world = (.ok (), w)) (st : State) (took : Nat) (ht : took < 299500)
    (hp : (env.poll w).1 = (took, .ok st)) (hst : st.status ≤ 0) :
    (update env true callback s).1 = .ok st ∧ polls (update env true callback s).2.log = polls s.log ++ [.ok st] := by
  rw [update_run env callback s i hi hs, hd]
  show (loop env callback 300000 _).1 = _ ∧ polls (loop env callback 300000 _).2.log = _
  rw [loop, if_neg (by decide)]
  rcases hpw : env.poll w with ⟨⟨took', r⟩, w'⟩
  rw [hpw] at hp
  cases hp
  have hpoll : env.poll ((St.add { s with world := w } .download).add (.slept 500)).world = ((took, .ok st), w') := hpw
  simp only [hpoll]
  rw [if_neg (by omega)]
  by_cases h0 : st.status = 0
  · rw [if_pos h0]
    cases callback <;> simp [St.add, polls_append, polls]
  · rw [if_neg h0, if_neg (by omega), if_neg (by omega), if_pos (by omega)]
    cases callback <;> simp [St.add, polls_append, polls]

end

/-! ## Non-vacuity -/

/-- A device that downloads, flashes for 60 s, does not answer while it restarts, and is idle then. -/
def example1 : Env Nat where
  latest n := (.ok ⟨2, true, some "1.1.0"⟩, n)
  download n := (.ok (), n)
  poll n := ((10, if n < 2 then .ok ⟨2, 50, 5, 60, false⟩ else if n = 2 then .ok ⟨3, 100, 5, 60, false⟩
    else if n < 5 then .error .timeout else .ok ⟨0, 100, 5, 60, false⟩), n + 1)

def start1 : St Nat := { world := 0, info := some ⟨2, true, some "1.1.0"⟩ }

example : (do let _ ← check example1; update example1 true true) { world := 0 : St Nat } =
    (update example1 true true start1) := rfl

/-- The hypotheses of `C65_watched` and of `C65_returns` are met. -/
example : start1.info = some ⟨2, true, some "1.1.0"⟩ ∧ (2 : Int) ≠ 0 ∧
    (example1.download start1.world).1 = .ok () := ⟨rfl, by decide, rfl⟩

/-- A device that never gets ready: the hypothesis of `C65_not_started` and of `C65_failed_check`. -/
def example2 : Env Unit where
  latest _ := (.error .timeout, ())
  download _ := (.error (.device (some 5)), ())
  poll _ := ((10, .error .timeout), ())

example : (check example2 { world := (), info := some ⟨2, true, none⟩ }).2.info = none := rfl
example : (update example2 true true { world := (), info := some ⟨2, true, none⟩ }).1 = .error (.device (some 5)) := rfl

/-- The hypotheses of `C65_not_raised`: the download fails. -/
def example3 : Env Unit where
  latest _ := (.ok ⟨2, true, some "1.1.0"⟩, ())
  download _ := (.ok (), ())
  poll _ := ((10, .ok ⟨-1, 0, 5, 60, false⟩), ())

example : (update example3 true false { world := (), info := some ⟨2, true, none⟩ }).1 = .ok ⟨-1, 0, 5, 60, false⟩ :=
  (C65_not_raised example3 false _ ⟨2, true, none⟩ rfl (by decide) () rfl _ 10 (by decide) rfl (by decide)).1

end Kasa.Firmware
