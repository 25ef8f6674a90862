import Verif.Lemmas.XorTransport
/-!
# C03: a legacy response always belongs to the request that returned it
-/

namespace Kasa.XorT

section
variable {Val : Type} (parse : Bytes → Option Val) (answer : Nat → Bytes)

/-- C03: in every history of requests and closes on one transport object, starting disconnected, with any
failures, timeouts and cancellations, if the `k`-th operation returns a value then that value is the parsed
answer of the device to the `k`-th operation's own request. -/
theorem C03_own_answer (hans : ∀ i, (answer i).length < 2 ^ 32) (ops : List Op) (k : Nat) (v : Val)
    (s : St) (h : (run parse answer 0 ⟨none⟩ ops)[k]? = some (some (.ok v), s)) :
    parse (answer k) = some v := by
  have gen : ∀ (ops : List Op) (i : Nat) (s0 : St), Synced answer s0 → ∀ k,
      (run parse answer i s0 ops)[k]? = some (some (.ok v), s) → parse (answer (i + k)) = some v := by
    intro ops
    induction ops with
    | nil => intro i s0 _ k hk; simp [run] at hk
    | cons op ops ih =>
      intro i s0 hs k hk
      cases op with
      | send request e =>
        simp only [run] at hk
        cases k with
        | zero =>
          simp only [List.getElem?_cons_zero, Option.some.injEq, Prod.mk.injEq] at hk
          have := send_ok parse answer hans i request e s0 s hs v
            (Prod.ext hk.1 hk.2)
          simpa using this.1
        | succ k =>
          simp only [List.getElem?_cons_succ] at hk
          have := ih (i + 1) _ (send_synced parse answer hans i request e s0 hs) k hk
          rwa [Nat.add_right_comm, Nat.add_assoc] at this
      | close =>
        simp only [run] at hk
        cases k with
        | zero => simp at hk
        | succ k =>
          simp only [List.getElem?_cons_succ] at hk
          have := ih (i + 1) _ (by intro c hc; simp [reset, closeWithoutWait] at hc) k hk
          rwa [Nat.add_right_comm, Nat.add_assoc] at this
  have := gen ops 0 ⟨none⟩ (by intro c hc; simp at hc) k h
  simpa using this

/-- C03: after any failed request, and after a close, the connection is gone (reader and writer unset). -/
theorem C03_failure_drops_connection (ops : List Op) (k : Nat) (s : St) :
    (∀ ex, (run parse answer 0 ⟨none⟩ ops)[k]? = some (some (.error ex), s) → s.conn = none) ∧
    ((run parse answer 0 ⟨none⟩ ops)[k]? = some (none, s) → s.conn = none) := by
  have gen : ∀ (ops : List Op) (i : Nat) (s0 : St) (k : Nat),
      (∀ ex, (run parse answer i s0 ops)[k]? = some (some (.error ex), s) → s.conn = none) ∧
      ((run parse answer i s0 ops)[k]? = some (none, s) → s.conn = none) := by
    intro ops
    induction ops with
    | nil => intro i s0 k; simp [run]
    | cons op ops ih =>
      intro i s0 k
      cases op with
      | send request e =>
        simp only [run]
        cases k with
        | zero =>
          simp only [List.getElem?_cons_zero, Option.some.injEq, Prod.mk.injEq]
          refine ⟨?_, by simp⟩
          intro ex hk
          exact send_error_closed parse answer i request e s0 s ex (Prod.ext hk.1 hk.2)
        | succ k => simpa using ih (i + 1) _ k
      | close =>
        simp only [run]
        cases k with
        | zero =>
          simp only [List.getElem?_cons_zero, Option.some.injEq, Prod.mk.injEq]
          refine ⟨by simp, ?_⟩
          rintro ⟨_, rfl⟩; rfl
        | succ k => simpa using ih (i + 1) _ k
  exact gen ops 0 ⟨none⟩ k

/-- C03: a failure of a request reaches the caller as a library exception unless the task itself was
cancelled (at the await or while the connection is being closed); a connect timeout is a `TimeoutError`, a
refused connection or unreachable host a plain `KasaException` (not retried by the protocol). -/
theorem C03_failure_class (i : Nat) (request : Bytes) (e : SendEnv) (s s' : St) (ex : Exc)
    (hcancel : e.cancelInReset = false) (hc : e.connect ≠ some .base) (hw : e.write ≠ some .base)
    (hr : e.readFailure ≠ .base) (h : send parse answer i request e s = (.error ex, s')) :
    ex.isKasa = true ∧
    (s.conn = none → e.connect = some .timeout → ex = .timeout) ∧
    (s.conn = none → (e.connect = some .refused ∨ e.connect = some (.os true)) → ex = .kasa) ∧
    (s.conn = none → e.connect = some (.os false) → ex = .retryable none) := by
  have key : (send parse answer i request e s).1 = .error ex := by rw [h]
  unfold send at key
  split at key
  · rename_i f hf
    have hconn : s.conn = none ∧ e.connect = some f := by
      unfold connect at hf
      split at hf
      · simp at hf
      · rename_i hn
        split at hf
        · simp at hf
        · rename_i f' hf'
          simp only [Except.error.injEq] at hf
          subst hf
          exact ⟨hn, hf'⟩
    rw [hconn.2]
    cases f with
    | timeout => simp [connectFailed, afterReset, hcancel] at key; subst key; simp [Exc.isKasa]
    | refused => simp [connectFailed, afterReset, hcancel] at key; subst key; simp [Exc.isKasa]
    | os b =>
      cases b <;> simp [connectFailed, afterReset, hcancel] at key <;> subst key <;> simp [Exc.isKasa]
    | exception => simp [connectFailed, afterReset, hcancel] at key; subst key; simp [Exc.isKasa]
    | base => exact absurd hconn.2 hc
  · rename_i c hcc
    have hnf : ∀ f, s.conn = none → e.connect = some f → False := by
      intro f h1 h2
      simp [connect, h1, h2] at hcc
    split at key
    · rename_i f hf
      have hfb : f ≠ .base := by
        intro hfb
        subst hfb
        unfold executeSend at hf
        split at hf
        · simp at hf
        · split at hf
          · rename_i f' hf'
            simp only [Except.error.injEq] at hf
            exact hw (hf' ▸ (by rw [hf]))
          · simp only at hf
            split at hf
            · simp only [Except.error.injEq] at hf
              exact hr hf
            · split at hf <;> simp at hf
      refine ⟨?_, fun h1 h2 => (hnf _ h1 h2).elim, ?_, fun h1 h2 => (hnf _ h1 h2).elim⟩
      · cases f with
        | base => exact absurd rfl hfb
        | timeout => simp [sendFailed, afterReset, hcancel] at key; subst key; rfl
        | refused => simp [sendFailed, afterReset, hcancel] at key; subst key; rfl
        | os b => simp [sendFailed, afterReset, hcancel] at key; subst key; rfl
        | exception => simp [sendFailed, afterReset, hcancel] at key; subst key; rfl
      · rintro h1 (h2 | h2)
        · exact (hnf _ h1 h2).elim
        · exact (hnf _ h1 h2).elim
    · simp at key

/-- A request during which nothing fails and whose answer arrives completely returns the parsed answer. -/
theorem send_calm (hans : ∀ i, (answer i).length < 2 ^ 32) (i : Nat) (request : Bytes) (hreq : request.length < 2 ^ 32) (e : SendEnv)
    (hc : e.connect = none) (hw : e.write = none) (s0 : St) (hs0 : Synced answer s0)
    (harr : (XorSpec.frame (answer i)).length ≤ e.arrived) (v : Val) (hp : parse (answer i) = some v) :
    ∃ s, send parse answer i request e s0 = (.ok v, s) := by
  have hconn : ∃ c, connect e s0 = .ok c ∧ c.consumed = (stream answer c.sent).length := by
    unfold connect
    cases h0 : s0.conn with
    | some c => exact ⟨c, rfl, hs0 c h0⟩
    | none => simp [hc, stream]
  obtain ⟨c, hcc, hcs⟩ := hconn
  have hf := Xor.C01_encrypt_eq_frame (answer i) (hans i)
  have hst : (stream answer (c.sent ++ [i])).drop c.consumed = XorSpec.frame (answer i) := by
    rw [stream_append, hcs, List.drop_append, hf]; simp
  obtain ⟨r', hr, _⟩ := Xor.C02_read_one (answer i) [] (hans i)
    ⟨[], cutBy e.segments (XorSpec.frame (answer i))⟩ (by simp [cutBy_flatten])
  have htake : (XorSpec.frame (answer i)).take e.arrived = XorSpec.frame (answer i) :=
    List.take_of_length_le harr
  unfold send
  rw [hcc]
  simp only [executeSend, Xor.C01_encrypt_eq_frame request hreq, hw, hst, htake, hr, hp]
  exact ⟨_, rfl⟩

/-- C03 is not vacuous: whatever happened before (any history), a request during which nothing fails and
whose answer arrives completely, in any segmentation, returns the parsed answer. -/
theorem C03_succeeds_when_nothing_fails (hans : ∀ i, (answer i).length < 2 ^ 32) (ops : List Op)
    (request : Bytes) (hreq : request.length < 2 ^ 32) (e : SendEnv) (hc : e.connect = none)
    (hw : e.write = none) (harr : (XorSpec.frame (answer ops.length)).length ≤ e.arrived) (v : Val)
    (hp : parse (answer ops.length) = some v) :
    ∃ s, (run parse answer 0 ⟨none⟩ (ops ++ [.send request e]))[ops.length]? = some (some (.ok v), s) := by
  have one : ∀ (i : Nat) (s0 : St), Synced answer s0 →
      (XorSpec.frame (answer i)).length ≤ e.arrived → parse (answer i) = some v →
      ∃ s, send parse answer i request e s0 = (.ok v, s) := fun i s0 hs0 harr hp =>
    send_calm parse answer hans i request hreq e hc hw s0 hs0 harr v hp
  have gen : ∀ (ops : List Op) (i : Nat) (s0 : St), Synced answer s0 →
      (XorSpec.frame (answer (i + ops.length))).length ≤ e.arrived →
      parse (answer (i + ops.length)) = some v →
      ∃ s, (run parse answer i s0 (ops ++ [.send request e]))[ops.length]? = some (some (.ok v), s) := by
    intro ops
    induction ops with
    | nil =>
      intro i s0 hs0 harr hp
      obtain ⟨s, hs⟩ := one i s0 hs0 (by simpa using harr) (by simpa using hp)
      exact ⟨s, by simp [run, hs]⟩
    | cons op ops ih =>
      intro i s0 hs0 harr hp
      have e1 : i + 1 + ops.length = i + (op :: ops).length := by simp; omega
      cases op with
      | send rq e' =>
        obtain ⟨s, hs⟩ := ih (i + 1) _ (send_synced parse answer hans i rq e' s0 hs0)
          (by rw [e1]; exact harr) (by rw [e1]; exact hp)
        exact ⟨s, by simpa [run] using hs⟩
      | close =>
        obtain ⟨s, hs⟩ := ih (i + 1) ⟨none⟩ (by intro c hc; simp at hc)
          (by rw [e1]; exact harr) (by rw [e1]; exact hp)
        exact ⟨s, by simpa [run, reset, closeWithoutWait] using hs⟩
  exact gen ops 0 ⟨none⟩ (by intro c hc; simp at hc) (by simpa using harr) (by simpa using hp)

end

/-- Non-vacuity of C03: answers `[1]` and `[2]`; the first request times out with its answer still under
way, the second one returns its own answer, not the late first one. -/
example :
    let ans : Nat → Bytes := fun i => if i = 0 then [1] else [2]
    let e1 : SendEnv := ⟨none, none, 3, [2], .timeout, false⟩
    let e2 : SendEnv := ⟨none, none, 100, [4, 1], .timeout, false⟩
    (run (fun b => some b) ans 0 ⟨none⟩ [.send [] e1, .send [] e2]).map (·.1)
      = [some (.error .timeout), some (.ok [2])] := by decide

end Kasa.XorT
