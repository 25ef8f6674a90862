import Verif.Lemmas.RetryLoop
/-!
# C04: query retries are bounded and follow the error class
-/

namespace Kasa.Retry
open RetrySpec PyM

variable {α : Type}

/-- C04 (legacy protocol): given any sequence of exchange outcomes there is a number `n ≤ retry_count` such that
exchanges `0..n` take place and no others; exchanges before `n` failed with a transient error; exchange `n` is the
last because the budget is used up or because it succeeded or failed with a non-transient error; its outcome is the
outcome of the query; and the complete observable behaviour is the exchanges with a reset after each library error
except connection errors and a sleep before retrying a timeout. -/
theorem C04_iot_query (outcome : Nat → Except Exc α) (retryCount : Nat) :
    ∃ n, n ≤ retryCount ∧
      (∀ i < n, ∃ e, outcome i = .error e ∧ Transient e) ∧
      (n = retryCount ∨ ∀ e, outcome n = .error e → ¬ Transient e) ∧
      iotQuery (logging outcome) retryCount [] =
        (outcome n, (List.range n).flatMap (fun i => retried false (outcome i))
          ++ .sent (outcome n) :: final (outcome n)) := by
  obtain ⟨n, _, h2, h3, h4, h5⟩ := loop_spec false outcome retryCount retryCount 0 (by omega) []
  refine ⟨n, h2, fun i hi => h3 i (by omega) hi, h4, ?_⟩
  unfold iotQuery
  have : ((retryCount : Int) + 1).toNat = retryCount + 1 := by omega
  rw [this, List.range_eq_range', h5]
  simp [List.range_eq_range']

/-- C04 (SMART protocol): as for the legacy protocol, with a sleep before retrying a retryable error as well. -/
theorem C04_smart_query (outcome : Nat → Except Exc α) (retryCount : Nat) :
    ∃ n, n ≤ retryCount ∧
      (∀ i < n, ∃ e, outcome i = .error e ∧ Transient e) ∧
      (n = retryCount ∨ ∀ e, outcome n = .error e → ¬ Transient e) ∧
      smartQuery (logging outcome) retryCount [] =
        (outcome n, (List.range n).flatMap (fun i => retried true (outcome i))
          ++ .sent (outcome n) :: final (outcome n)) := by
  obtain ⟨n, _, h2, h3, h4, h5⟩ := loop_spec true outcome retryCount retryCount 0 (by omega) []
  refine ⟨n, h2, fun i hi => h3 i (by omega) hi, h4, ?_⟩
  unfold smartQuery
  have : ((retryCount : Int) + 1).toNat = retryCount + 1 := by omega
  rw [this, List.range_eq_range', h5]
  simp [List.range_eq_range']

/-- C04 in an arbitrary, stateful environment whose reset and sleep may themselves raise: at most
`retry_count + 1` exchanges, and after a library error other than a connection error nothing but a reset follows. -/
theorem C04_any_environment {S : Type} (ops : Ops S α) (retryCount : Nat) (s : S) :
    (∀ log, (iotQuery (traced ops) retryCount (s, [])).2.2 = log →
      (log.filter TEvent.isSent).length ≤ retryCount + 1 ∧ ResetsRespected log) ∧
    (∀ log, (smartQuery (traced ops) retryCount (s, [])).2.2 = log →
      (log.filter TEvent.isSent).length ≤ retryCount + 1 ∧ ResetsRespected log) := by
  have hn : ((retryCount : Int) + 1).toNat = retryCount + 1 := by omega
  constructor
  · intro log hlog
    obtain ⟨sf, h1, h2, h3, _⟩ := traced_loop false ops retryCount (List.range (retryCount + 1)) s []
    unfold iotQuery at hlog
    rw [hn] at hlog
    rw [hlog] at h1
    simp at h1; subst h1
    exact ⟨by simpa using h2, h3⟩
  · intro log hlog
    obtain ⟨sf, h1, h2, h3, _⟩ := traced_loop true ops retryCount (List.range (retryCount + 1)) s []
    unfold smartQuery at hlog
    rw [hn] at hlog
    rw [hlog] at h1
    simp at h1; subst h1
    exact ⟨by simpa using h2, h3⟩

/-- C04, degenerate argument: a negative `retry_count` means no exchange at all and a library error. -/
theorem C04_negative_count {S : Type} (ops : Ops S α) (retryCount : Int) (h : retryCount < 0) (s : S) :
    iotQuery ops retryCount s = (.error .kasa, s) ∧ smartQuery ops retryCount s = (.error .kasa, s) := by
  have hn : (retryCount + 1).toNat = 0 := by omega
  simp [iotQuery, smartQuery, hn, loop]

/-- Non-vacuity of C04: two timeouts, then success. -/
example : (smartQuery (logging fun n => if n < 2 then .error .timeout else (.ok 7 : Except Exc Nat)) 3 []).1
    = .ok 7 := by decide
/-- Non-vacuity of C04: a device error is not retried. -/
example : (iotQuery (logging fun n => if n = 0 then .error (.device (some 5)) else (.ok 7 : Except Exc Nat)) 3 []).1
    = .error (.device (some 5)) := by decide

end Kasa.Retry
