import Verif.Model.QueryLock
import Verif.Spec.QueryLock
/-!
# C05: concurrent queries on one protocol never interleave on the wire
-/

namespace Kasa.Lock
open LockSpec

variable {Op R α σ : Type} {prim : Op → σ → R → σ → Prop} {prog : Nat → Co Op R α}

@[simp] theorem upd_same (f : Nat → TState Op R α) (t : Nat) (x : TState Op R α) : upd f t x t = x := by simp [upd]
theorem upd_ne (f : Nat → TState Op R α) {t i : Nat} (x : TState Op R α) (h : i ≠ t) : upd f t x i = f i := by
  simp [upd, h]

/-- The invariant: finished calls are serial; the holder of the lock, if any, is in the middle of its own run and is
the only one running. -/
structure Inv (prim : Op → σ → R → σ → Prop) (prog : Nat → Co Op R α) (w0 : σ) (c : Cfg Op R α σ)
    (calls : List (Call Op R α)) (w : σ) (tail : List (Op × R)) : Prop where
  serial : Serial prim prog w0 calls w
  once : (calls.map (·.task)).Nodup
  finished : ∀ call ∈ calls, c.tasks call.task = .finished call.result
  result : ∀ t r, c.tasks t = .finished r → (∃ call ∈ calls, call.task = t ∧ call.result = r) ∨
    (r = .error .base ∧ ∀ call ∈ calls, call.task ≠ t)
  running : ∀ t p, c.tasks t = .running p → c.holder = some t
  holder : match c.holder with
    | none => c.world = w ∧ tail = [] ∧ c.log = seenAll calls
    | some t => ∃ p, c.tasks t = .running p ∧ Co.Partial prim (prog t) w tail p c.world ∧
        c.log = seenAll calls ++ seen t tail

theorem inv_step {w0 : σ} {c c' : Cfg Op R α σ} {calls : List (Call Op R α)} {w : σ} {tail : List (Op × R)}
    (hi : Inv prim prog w0 c calls w tail) (hs : Step prim prog c c') :
    ∃ calls' w' tail', Inv prim prog w0 c' calls' w' tail' := by
  cases hs with
  | call t h =>
    refine ⟨calls, w, tail, hi.serial, hi.once, ?_, ?_, ?_, ?_⟩
    · intro call hc
      have := hi.finished call hc
      have hne : call.task ≠ t := by intro he; rw [he, h] at this; cases this
      simp only [upd_ne _ _ hne]; exact this
    · intro t' r hr
      by_cases ht : t' = t
      · subst ht; simp only [upd_same] at hr; cases hr
      · simp only [upd_ne _ _ ht] at hr; exact hi.result t' r hr
    · intro t' p hp
      by_cases ht : t' = t
      · subst ht; simp only [upd_same] at hp; cases hp
      · simp only [upd_ne _ _ ht] at hp; exact hi.running t' p hp
    · have hh := hi.holder
      cases hhold : c.holder with
      | none => rw [hhold] at hh; exact hh
      | some t' =>
        rw [hhold] at hh
        obtain ⟨p, h1, h2, h3⟩ := hh
        have hne : t' ≠ t := by intro he; rw [he, h] at h1; cases h1
        exact ⟨p, by simp only [upd_ne _ _ hne]; exact h1, h2, h3⟩
  | giveUp t h =>
    refine ⟨calls, w, tail, hi.serial, hi.once, ?_, ?_, ?_, ?_⟩
    · intro call hc
      have := hi.finished call hc
      have hne : call.task ≠ t := by intro he; rw [he, h] at this; cases this
      simp only [upd_ne _ _ hne]; exact this
    · intro t' r hr
      by_cases ht : t' = t
      · subst ht; simp only [upd_same] at hr; cases hr
        refine Or.inr ⟨rfl, ?_⟩
        intro call hc he
        have := hi.finished call hc
        rw [he, h] at this; cases this
      · simp only [upd_ne _ _ ht] at hr; exact hi.result t' r hr
    · intro t' p hp
      by_cases ht : t' = t
      · subst ht; simp only [upd_same] at hp; cases hp
      · simp only [upd_ne _ _ ht] at hp; exact hi.running t' p hp
    · have hh := hi.holder
      cases hhold : c.holder with
      | none => rw [hhold] at hh; exact hh
      | some t' =>
        rw [hhold] at hh
        obtain ⟨p, h1, h2, h3⟩ := hh
        have hne : t' ≠ t := by intro he; rw [he, h] at h1; cases h1
        exact ⟨p, by simp only [upd_ne _ _ hne]; exact h1, h2, h3⟩
  | acquire t h hfree =>
    have hh := hi.holder
    rw [hfree] at hh
    obtain ⟨h1, h2, h3⟩ := hh
    refine ⟨calls, w, [], hi.serial, hi.once, ?_, ?_, ?_, ?_⟩
    · intro call hc
      have := hi.finished call hc
      have hne : call.task ≠ t := by intro he; rw [he, h] at this; cases this
      simp only [upd_ne _ _ hne]; exact this
    · intro t' r hr
      by_cases ht : t' = t
      · subst ht; simp only [upd_same] at hr; cases hr
      · simp only [upd_ne _ _ ht] at hr; exact hi.result t' r hr
    · intro t' p hp
      by_cases ht : t' = t
      · rw [ht]
      · simp only [upd_ne _ _ ht] at hp
        have := hi.running t' p hp
        rw [hfree] at this; cases this
    · exact ⟨prog t, by simp only [upd_same], by rw [← h1]; exact .start _ _, by simp [h3, seen]⟩
  | prim t o k x w' h hp =>
    have hhold := hi.running t _ h
    have hh := hi.holder
    rw [hhold] at hh
    obtain ⟨p, h1, h2, h3⟩ := hh
    rw [h] at h1
    cases h1
    refine ⟨calls, w, tail ++ [(o, x)], hi.serial, hi.once, ?_, ?_, ?_, ?_⟩
    · intro call hc
      have := hi.finished call hc
      have hne : call.task ≠ t := by intro he; rw [he, h] at this; cases this
      simp only [upd_ne _ _ hne]; exact this
    · intro t' r hr
      by_cases ht : t' = t
      · subst ht; simp only [upd_same] at hr; cases hr
      · simp only [upd_ne _ _ ht] at hr; exact hi.result t' r hr
    · intro t' p hp
      by_cases ht : t' = t
      · rw [ht]; exact hhold
      · simp only [upd_ne _ _ ht] at hp; exact hi.running t' p hp
    · simp only [hhold]
      exact ⟨k x, by simp only [upd_same], .step h2 hp, by simp [h3, seen]⟩
  | release t r h =>
    have hhold := hi.running t _ h
    have hh := hi.holder
    rw [hhold] at hh
    obtain ⟨p, h1, h2, h3⟩ := hh
    rw [h] at h1
    cases h1
    have hnew : ∀ call ∈ calls, call.task ≠ t := by
      intro call hc he
      have := hi.finished call hc
      rw [he, h] at this; cases this
    refine ⟨calls ++ [⟨t, tail, r⟩], c.world, [], .snoc hi.serial h2.complete, ?_, ?_, ?_, ?_, ?_⟩
    · rw [List.map_append, List.nodup_append]
      refine ⟨hi.once, by simp, ?_⟩
      intro a ha b hb hab
      obtain ⟨call, hc, rfl⟩ := List.mem_map.mp ha
      simp at hb
      exact hnew call hc (hab.trans hb)
    · intro call hc
      rcases List.mem_append.mp hc with hc | hc
      · simp only [upd_ne _ _ (hnew call hc)]; exact hi.finished call hc
      · simp at hc; subst hc; simp
    · intro t' r' hr
      by_cases ht : t' = t
      · subst ht; simp only [upd_same] at hr; cases hr
        exact Or.inl ⟨_, List.mem_append_right _ (List.mem_singleton.mpr rfl), rfl, rfl⟩
      · simp only [upd_ne _ _ ht] at hr
        rcases hi.result t' r' hr with ⟨call, hc, h4⟩ | ⟨h4, h5⟩
        · exact Or.inl ⟨call, List.mem_append_left _ hc, h4⟩
        · refine Or.inr ⟨h4, ?_⟩
          intro call hc
          rcases List.mem_append.mp hc with hc | hc
          · exact h5 call hc
          · simp at hc; subst hc; exact Ne.symm ht
    · intro t' p hp
      by_cases ht : t' = t
      · subst ht; simp only [upd_same] at hp; cases hp
      · simp only [upd_ne _ _ ht] at hp
        have := hi.running t' p hp
        rw [hhold] at this
        cases this
        exact absurd rfl ht
    · exact ⟨rfl, rfl, by simp [h3, seenAll]⟩

theorem inv_reachable {w0 : σ} {c : Cfg Op R α σ} (h : Steps prim prog (init w0) c) :
    ∃ calls w tail, Inv prim prog w0 c calls w tail := by
  induction h with
  | refl =>
    refine ⟨[], w0, [], .nil, by simp, by simp, ?_, ?_, ?_⟩
    · intro t r h; cases h
    · intro t p h; cases h
    · exact ⟨rfl, rfl, rfl⟩
  | tail _ h' ih =>
    obtain ⟨calls, w, tail, hi⟩ := ih
    exact inv_step hi h'

/-- C05: in every state that any number of tasks can reach on one protocol object, under any schedule, with any
outcomes and cancellations, at most one task is inside its query, namely the holder of the lock. -/
theorem C05_exclusive {w0 : σ} {c : Cfg Op R α σ} (h : Steps prim prog (init w0) c) (t t' : Nat) (p p' : Co Op R α)
    (ht : c.tasks t = .running p) (ht' : c.tasks t' = .running p') : t = t' := by
  obtain ⟨calls, w, tail, hi⟩ := inv_reachable h
  have h1 := hi.running t p ht
  have h2 := hi.running t' p' ht'
  rw [h1] at h2
  cases h2; rfl

/-- C05: what happened on the wire is a sequence of uninterrupted calls, one after another, each caller at most once,
followed by the beginning of the call of the task that holds the lock; and every task that has its result got the
result of its own call (or was cancelled before its call started, having done nothing). -/
theorem C05_serial {w0 : σ} {c : Cfg Op R α σ} (h : Steps prim prog (init w0) c) :
    ∃ (calls : List (Call Op R α)) (w : σ) (tail : List (Op × R)),
      Serial prim prog w0 calls w ∧ (calls.map (·.task)).Nodup ∧
      (match c.holder with
       | none => c.world = w ∧ c.log = seenAll calls
       | some t => c.log = seenAll calls ++ seen t tail ∧ ∃ p, Co.Partial prim (prog t) w tail p c.world) ∧
      ∀ t r, c.tasks t = .finished r →
        (∃ call ∈ calls, call.task = t ∧ call.result = r) ∨ (r = .error .base ∧ ∀ e ∈ c.log, e.1 ≠ t) := by
  obtain ⟨calls, w, tail, hi⟩ := inv_reachable h
  refine ⟨calls, w, tail, hi.serial, hi.once, ?_, ?_⟩
  · have hh := hi.holder
    cases hhold : c.holder with
    | none => rw [hhold] at hh; exact ⟨hh.1, hh.2.2⟩
    | some t =>
      rw [hhold] at hh
      obtain ⟨p, _, h2, h3⟩ := hh
      exact ⟨h3, p, h2⟩
  · intro t r hr
    rcases hi.result t r hr with h1 | ⟨h1, h2⟩
    · exact Or.inl h1
    · refine Or.inr ⟨h1, ?_⟩
      have hall : ∀ e ∈ seenAll calls, e.1 ≠ t := by
        intro e he
        simp only [seenAll, seen, List.mem_flatMap, List.mem_map] at he
        obtain ⟨call, hc, x, _, rfl⟩ := he
        exact h2 call hc
      have hh := hi.holder
      cases hhold : c.holder with
      | none => rw [hhold] at hh; rw [hh.2.2]; exact hall
      | some t' =>
        rw [hhold] at hh
        obtain ⟨p, h3, _, h4⟩ := hh
        rw [h4]
        intro e he
        rcases List.mem_append.mp he with he | he
        · exact hall e he
        · simp only [seen, List.mem_map] at he
          obtain ⟨x, _, rfl⟩ := he
          intro he
          simp only at he
          rw [he, hr] at h3
          cases h3

theorem Steps.trans {a b c : Cfg Op R α σ} (h1 : Steps prim prog a b) (h2 : Steps prim prog b c) :
    Steps prim prog a c := by
  induction h2 with
  | refl => exact h1
  | tail _ h ih => exact .tail ih h

/-- The holder of the lock runs to its end. -/
theorem holder_finishes (htotal : ∀ o w, ∃ x w', prim o w x w') (p : Co Op R α) (c : Cfg Op R α σ) (t : Nat)
    (h : c.tasks t = .running p) :
    ∃ c', Steps prim prog c c' ∧ c'.holder = none ∧ (∃ r, c'.tasks t = .finished r) ∧
      ∀ t', t' ≠ t → c'.tasks t' = c.tasks t' := by
  induction p generalizing c with
  | ret r =>
    refine ⟨_, .tail .refl (.release c t r h), rfl, ⟨r, by simp⟩, ?_⟩
    intro t' ht; simp [upd, ht]
  | op o k ih =>
    obtain ⟨x, w, hp⟩ := htotal o c.world
    obtain ⟨c', h1, h2, h3, h4⟩ := ih x
      { c with tasks := upd c.tasks t (.running (k x)), world := w, log := c.log ++ [(t, o, x)] } (by simp)
    refine ⟨c', (Steps.tail .refl (.prim c t o k x w h hp)).trans h1, h2, h3, ?_⟩
    intro t' ht
    rw [h4 t' ht]; simp [upd, ht]

/-- C05: whatever has happened (results, failures, cancellations), a task waiting for the protocol can still get its
turn and finish its own query: the lock is never lost.  (`htotal`: every operation ends somehow.) -/
theorem C05_lock_released (htotal : ∀ o w, ∃ x w', prim o w x w') {w0 : σ} {c : Cfg Op R α σ}
    (h : Steps prim prog (init w0) c) (t : Nat) (ht : c.tasks t = .waiting) :
    ∃ c1 c2 r, Steps prim prog c c1 ∧ c1.tasks t = .running (prog t) ∧ Steps prim prog c1 c2 ∧
      c2.tasks t = .finished r := by
  obtain ⟨calls, w, tail, hi⟩ := inv_reachable h
  have hfree : ∃ c0, Steps prim prog c c0 ∧ c0.holder = none ∧ c0.tasks t = .waiting := by
    have hh := hi.holder
    cases hhold : c.holder with
    | none => exact ⟨c, .refl, hhold, ht⟩
    | some t' =>
      rw [hhold] at hh
      obtain ⟨p, h1, _, _⟩ := hh
      obtain ⟨c', h2, h3, _, h5⟩ := holder_finishes (prog := prog) htotal p c t' h1
      refine ⟨c', h2, h3, ?_⟩
      rw [h5 t (by intro he; rw [he, h1] at ht; cases ht)]
      exact ht
  obtain ⟨c0, h0, hn, hw⟩ := hfree
  obtain ⟨c2, h1, _, ⟨r, h2⟩, _⟩ := holder_finishes (prog := prog) htotal (prog t)
    { c0 with tasks := upd c0.tasks t (.running (prog t)), holder := some t } t (by simp)
  exact ⟨_, c2, r, .tail h0 (.acquire c0 t hw hn), by simp, h1, h2⟩

/-- C05: what holds of calls made one at a time holds of concurrent calls.  `good` is what every call needs of the
world and leaves behind, `post t` what it promises of its result. -/
theorem C05_transfer {good : σ → Prop} {post : Nat → Except Exc α → Prop} {w0 : σ} (h0 : good w0)
    (hseq : ∀ t, Co.Sat prim good (prog t) fun r w => good w ∧ post t r) {c : Cfg Op R α σ}
    (h : Steps prim prog (init w0) c) (t : Nat) (r : Except Exc α) (hr : c.tasks t = .finished r) :
    post t r ∨ (r = .error .base ∧ ∀ e ∈ c.log, e.1 ≠ t) := by
  obtain ⟨calls, w, tail, hser, hn, hlog, hres⟩ := C05_serial h
  rcases hres t r hr with ⟨call, hc, rfl, rfl⟩ | h1
  · left
    have : good w ∧ ∀ call ∈ calls, post call.task call.result := by
      clear hres hr hc hn hlog
      induction hser with
      | nil => exact ⟨h0, by simp⟩
      | snoc hs hrun ih =>
        obtain ⟨hg, hp⟩ := hseq _ _ ih.1 _ _ _ hrun
        refine ⟨hg, ?_⟩
        intro call hc
        rcases List.mem_append.mp hc with hc | hc
        · exact ih.2 call hc
        · simp at hc; subst hc; exact hp
    exact this.2 call hc
  · exact Or.inr h1

/-! ## The legacy protocol -/

/-- No answer is outstanding on the connection. -/
def Synced (w : LWorld) : Prop := w = .none ∨ w = .conn []

theorem sat_resetThen (ex : Exc) (i : Nat) :
    Co.Sat LPrim (fun _ => True) (resetThen ex) fun r w => Synced w ∧ ∀ j, r = .ok j → j = i := by
  refine Co.Sat.op (fun _ w => w = .none) ?_ ?_
  · intro w x w' _ hp; cases hp; rfl
  · intro x
    cases x with
    | ok _ => exact Co.Sat.ret fun w hw => ⟨Or.inl hw, by intro j hj; cases hj⟩
    | error _ => exact Co.Sat.ret fun w hw => ⟨Or.inl hw, by intro j hj; cases hj⟩

theorem sat_failed (f : XorT.Failure) (ex : Exc) (i : Nat) :
    Co.Sat LPrim (fun _ => True) (failed f ex) fun r w => Synced w ∧ ∀ j, r = .ok j → j = i := by
  unfold failed
  split
  · refine Co.Sat.op (fun _ w => w = .none) ?_ ?_
    · intro w x w' _ hp; cases hp; rfl
    · intro x
      exact Co.Sat.ret fun w hw => ⟨Or.inl hw, by intro j hj; cases hj⟩
  · exact sat_resetThen ex i

theorem sat_send (i : Nat) : Co.Sat LPrim Synced (sendCo i) fun r w => Synced w ∧ ∀ j, r = .ok j → j = i := by
  refine Co.Sat.op (fun x w => ∀ v, x = .ok v → w = .conn []) ?_ ?_
  · intro w x w' hw hp v hv
    cases hp with
    | connect_reuse _ h =>
      rcases hw with rfl | rfl
      · exact absurd rfl h
      · rfl
    | connect_ok => rfl
    | connect_fail f => cases hv
  · intro x
    cases x with
    | error f => exact (sat_failed f _ i).weaken (fun _ _ => trivial) fun _ _ h => h
    | ok v =>
      refine Co.Sat.op (fun x w => ∀ v, x = .ok v → w = .conn [i]) ?_ ?_
      · intro w x w' hw hp u hu
        have := hw v rfl
        subst this
        cases hp with
        | write_ok => rfl
        | write_fail => cases hu
      · intro x
        cases x with
        | error f => exact (sat_failed f _ i).weaken (fun _ _ => trivial) fun _ _ h => h
        | ok v' =>
          refine Co.Sat.op (fun x w => ∀ j, x = .ok j → w = .conn [] ∧ j = i) ?_ ?_
          · intro w x w' hw hp j hj
            have := hw v' rfl
            subst this
            cases hp with
            | read_ok => cases hj; exact ⟨rfl, rfl⟩
            | read_fail => cases hj
            | read_tear => cases hj
          · intro x
            cases x with
            | error f => exact (sat_failed f _ i).weaken (fun _ _ => trivial) fun _ _ h => h
            | ok j =>
              refine Co.Sat.ret fun w hw => ?_
              obtain ⟨h1, h2⟩ := hw j rfl
              exact ⟨Or.inr h1, by intro j' hj'; cases hj'; exact h2⟩

theorem sat_resetCo : Co.Sat LPrim Synced resetCo fun _ w => Synced w := by
  refine Co.Sat.op (fun _ w => w = .none) ?_ ?_
  · intro w x w' _ hp; cases hp; rfl
  · intro x
    cases x with
    | ok _ => exact Co.Sat.ret fun w hw => Or.inl hw
    | error _ => exact Co.Sat.ret fun w hw => Or.inl hw

theorem sat_sleepCo : Co.Sat LPrim Synced sleepCo fun _ w => Synced w := by
  refine Co.Sat.op (fun _ w => Synced w) ?_ ?_
  · intro w x w' hw hp; cases hp; exact hw
  · intro x
    cases x with
    | ok _ => exact Co.Sat.ret fun w hw => hw
    | error _ => exact Co.Sat.ret fun w hw => hw

theorem sat_loop (i : Nat) (n : Int) (l : List Nat) :
    Co.Sat LPrim Synced (loopCo (sendCo i) n l) fun r w => Synced w ∧ ∀ j, r = .ok j → j = i := by
  have hraise : ∀ ex : Exc, Co.Sat LPrim Synced (.raise ex : LCo) fun r w => Synced w ∧ ∀ j, r = .ok j → j = i :=
    fun ex => Co.Sat.ret fun w hw => ⟨hw, by intro j hj; cases hj⟩
  have hreset : ∀ f : Nat → LCo, (∀ a, Co.Sat LPrim Synced (f a) fun r w => Synced w ∧ ∀ j, r = .ok j → j = i) →
      Co.Sat LPrim Synced (resetCo.bind f) fun r w => Synced w ∧ ∀ j, r = .ok j → j = i :=
    fun f hf => Co.Sat.bind _ sat_resetCo (fun e w hw => ⟨hw, by intro j hj; cases hj⟩) hf
  have hsleep : ∀ f : Nat → LCo, (∀ a, Co.Sat LPrim Synced (f a) fun r w => Synced w ∧ ∀ j, r = .ok j → j = i) →
      Co.Sat LPrim Synced (sleepCo.bind f) fun r w => Synced w ∧ ∀ j, r = .ok j → j = i :=
    fun f hf => Co.Sat.bind _ sat_sleepCo (fun e w hw => ⟨hw, by intro j hj; cases hj⟩) hf
  induction l with
  | nil => exact hraise _
  | cons retry rest ih =>
    refine Co.Sat.tryExcept _ (sat_send i) (fun a w h => h) ?_
    intro e
    refine Co.Sat.weaken (pre := Synced) ?_ (fun w hw => hw.1) (fun _ _ h => h)
    cases e with
    | connection => simp only; split; exact hraise _; exact ih
    | auth c => exact hreset _ fun _ => hraise _
    | retryable c => refine hreset _ fun _ => ?_; split; exact hraise _; exact ih
    | timeout => refine hreset _ fun _ => ?_; split; exact hraise _; exact hsleep _ fun _ => ih
    | kasa => exact hreset _ fun _ => hraise _
    | unsupported => exact hreset _ fun _ => hraise _
    | device c => exact hreset _ fun _ => hraise _
    | other n => exact hraise _
    | base => exact hraise _

/-- C05 (with C03) for the legacy protocol: any number of tasks query one device through one protocol object, task `t`
with the request `req t` and its own retry budget; under every schedule, with every failure and cancellation, a task
whose query returns has the device's answer to its own request. -/
theorem C05_own_answer (req : Nat → Nat) (retries : Nat → Int)
    {c : Cfg LOp (Except XorT.Failure Nat) Nat LWorld}
    (h : Steps LPrim (fun t => legacyQuery (req t) (retries t)) (init .none) c) (t j : Nat)
    (hr : c.tasks t = .finished (.ok j)) : j = req t := by
  rcases C05_transfer (good := Synced) (post := fun t r => ∀ j, r = .ok j → j = req t) (Or.inl rfl)
    (fun t => sat_loop (req t) (retries t) _) h t _ hr with h1 | ⟨h1, _⟩
  · exact h1 j rfl
  · cases h1

/-- The operations of the legacy transport always end somehow (hypothesis of `C05_lock_released`). -/
theorem lprim_total (o : LOp) (w : LWorld) : ∃ x w', LPrim o w x w' := by
  cases o with
  | connect =>
    cases w with
    | none => exact ⟨_, _, .connect_ok⟩
    | conn q => exact ⟨_, _, .connect_reuse _ (by simp)⟩
    | torn => exact ⟨_, _, .connect_reuse _ (by simp)⟩
  | write i =>
    cases w with
    | none => exact ⟨_, _, .write_none i⟩
    | conn q => exact ⟨_, _, .write_ok i q⟩
    | torn => exact ⟨_, _, .write_torn i (.ok 0)⟩
  | read =>
    cases w with
    | none => exact ⟨_, _, .read_none⟩
    | conn q => exact ⟨_, _, .read_fail q .timeout⟩
    | torn => exact ⟨_, _, .read_torn (.ok 0)⟩
  | close => exact ⟨_, _, .close w false⟩
  | closeNow => exact ⟨_, _, .closeNow w⟩
  | sleep => exact ⟨_, _, .sleep w false⟩

/-- C05 is not vacuous: two tasks call, the second waits while the first writes and times out (tearing the answer),
then both get their own answers. -/
example : ∃ c : Cfg LOp (Except XorT.Failure Nat) Nat LWorld,
    Steps LPrim (fun t => legacyQuery (t + 10) 1) (init .none) c ∧
    c.tasks 0 = .finished (.ok 10) ∧ c.tasks 1 = .finished (.ok 11) ∧
    c.log.map (fun e => (e.1, e.2.1)) =
      [(0, .connect), (0, .write 10), (0, .read), (0, .close), (0, .close), (0, .sleep), (0, .connect), (0, .write 10),
       (0, .read), (1, .connect), (1, .write 11), (1, .read)] := by
  have h0 := Steps.refl (prim := LPrim) (prog := fun t => legacyQuery (t + 10) 1)
    (c := init (α := Nat) .none)
  have h1 := h0.tail (.call _ 0 rfl)
  have h2 := h1.tail (.acquire _ 0 rfl rfl)
  have h3 := h2.tail (.call _ 1 rfl)
  have h4 := h3.tail (.prim _ 0 .connect _ (.ok 0) (.conn []) rfl .connect_ok)
  have h5 := h4.tail (.prim _ 0 (.write 10) _ (.ok 0) (.conn [10]) rfl (.write_ok 10 []))
  have h6 := h5.tail (.prim _ 0 .read _ (.error .timeout) .torn rfl (.read_tear 10 [] .timeout))
  have h7 := h6.tail (.prim _ 0 .close _ (.ok 0) .none rfl (.close .torn false))
  have h8 := h7.tail (.prim _ 0 .close _ (.ok 0) .none rfl (.close .none false))
  have h9 := h8.tail (.prim _ 0 .sleep _ (.ok 0) .none rfl (.sleep .none false))
  have h10 := h9.tail (.prim _ 0 .connect _ (.ok 0) (.conn []) rfl .connect_ok)
  have h11 := h10.tail (.prim _ 0 (.write 10) _ (.ok 0) (.conn [10]) rfl (.write_ok 10 []))
  have h12 := h11.tail (.prim _ 0 .read _ (.ok 10) (.conn []) rfl (.read_ok 10 []))
  have h13 := h12.tail (.release _ 0 (.ok 10) rfl)
  have h14 := h13.tail (.acquire _ 1 rfl rfl)
  have h15 := h14.tail (.prim _ 1 .connect _ (.ok 0) (.conn []) rfl (.connect_reuse _ (by simp)))
  have h16 := h15.tail (.prim _ 1 (.write 11) _ (.ok 0) (.conn [11]) rfl (.write_ok 11 []))
  have h17 := h16.tail (.prim _ 1 .read _ (.ok 11) (.conn []) rfl (.read_ok 11 []))
  have h18 := h17.tail (.release _ 1 (.ok 11) rfl)
  exact ⟨_, h18, rfl, rfl, rfl⟩

/-! ## The coroutine loop is the retry loop of C04 -/

open PyM in
/-- Run a coroutine alone, with the operations given as stateful functions. -/
def interp {S : Type} (h : Op → PyM S R) : Co Op R α → PyM S α
  | .ret r => PyM.lift r
  | .op o k => h o >>= fun x => interp h (k x)

theorem interp_bind {S β : Type} (h : Op → PyM S R) (m : Co Op R α) (f : α → Co Op R β) :
    interp h (m.bind f) = (interp h m >>= fun a => interp h (f a)) := by
  induction m with
  | ret r => cases r <;> rfl
  | op o k ih =>
    funext s
    simp only [Co.bind, interp, PyM.bind_apply]
    cases h o s with
    | mk x s' => cases x with
      | ok x => simp only; rw [ih]; rfl
      | error e => rfl

theorem interp_tryExcept {S : Type} (h : Op → PyM S R) (hno : ∀ o s, ∃ x s', h o s = (.ok x, s')) (m : Co Op R α)
    (f : Exc → Co Op R α) :
    interp h (m.tryExcept f) = PyM.tryExcept (interp h m) fun e => interp h (f e) := by
  induction m with
  | ret r => cases r <;> rfl
  | op o k ih =>
    funext s
    obtain ⟨x, s', hx⟩ := hno o s
    simp only [Co.tryExcept, interp, PyM.tryExcept, PyM.bind_apply, hx]
    rw [ih]; rfl

/-- The transport and the clock as the retry loop of C04 sees them. -/
def alone {S : Type} (h : LOp → PyM S (Except XorT.Failure Nat)) (i : Nat) : Retry.Ops S Nat where
  attempt _ := interp h (sendCo i)
  reset := interp h resetCo >>= fun _ => pure ()
  sleep := interp h sleepCo >>= fun _ => pure ()

/-- The loop whose interleavings C05 is about is the loop C04 is about. -/
theorem loopCo_is_loop {S : Type} (h : LOp → PyM S (Except XorT.Failure Nat))
    (hno : ∀ o s, ∃ x s', h o s = (.ok x, s')) (i : Nat) (n : Int) (l : List Nat) :
    interp h (loopCo (sendCo i) n l) = Retry.loop false (alone h i) n l := by
  have hb : ∀ (m : PyM S Nat) (f : PyM S Nat), (m >>= fun _ => f) = ((m >>= fun _ => pure ()) >>= fun _ => f) := by
    intro m f
    funext s
    simp only [PyM.bind_apply]
    cases m s with
    | mk x s' => cases x <;> rfl
  induction l with
  | nil => rfl
  | cons retry rest ih =>
    unfold loopCo Retry.loop
    rw [interp_tryExcept h hno]
    congr 1
    funext ex
    cases ex with
    | connection => simp only; split; rfl; exact ih
    | auth c => simp only [interp_bind]; rw [hb]; rfl
    | retryable c =>
      simp only [interp_bind]
      rw [hb]
      show _ = (alone h i).reset >>= _
      congr 1; funext _
      by_cases hr : (retry : Int) ≥ n
      · simp only [hr, if_true]; rfl
      · simp only [hr, if_false]; exact ih
    | timeout =>
      simp only [interp_bind]
      rw [hb]
      show _ = (alone h i).reset >>= _
      congr 1; funext _
      by_cases hr : (retry : Int) ≥ n
      · simp only [hr, if_true]; rfl
      · simp only [hr, if_false, interp_bind]
        rw [hb, ih]; rfl
    | kasa => simp only [interp_bind]; rw [hb]; rfl
    | unsupported => simp only [interp_bind]; rw [hb]; rfl
    | device c => simp only [interp_bind]; rw [hb]; rfl
    | other m => rfl
    | base => rfl

end Kasa.Lock
