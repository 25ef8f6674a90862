import Verif.Py.Monad
import Verif.Model.RetryLoop
/-!
# Specification of the retry behaviour

The environment is a list of answers: the outcome of the n-th transport exchange of the query.
-/

namespace Kasa.RetrySpec

/-- What an observer of the transport sees during one query. -/
inductive Event (α : Type) where
  | sent (outcome : Except Exc α)
  | reset
  | sleep

/-- Errors after which the query tries again: connection errors, timeouts, retryable device errors. -/
def Transient : Exc → Prop
  | .connection | .timeout | .retryable _ => True
  | _ => False

instance : DecidablePred Transient := fun e => by cases e <;> unfold Transient <;> infer_instance

/-- The transport must be reset after every library error except a connection error. -/
def resetsAfter (e : Exc) : Bool := e.isKasa && e != .connection

/-- What happens after a failed exchange that is going to be retried. -/
def between {α : Type} (sleepAfterRetryable : Bool) (e : Exc) : List (Event α) :=
  (if resetsAfter e then [.reset] else []) ++
  (if e = .timeout ∨ (sleepAfterRetryable = true ∧ e ≠ .connection) then [.sleep] else [])

/-- A failed exchange that is going to be retried, with what follows it. -/
def retried {α : Type} (sleepAfterRetryable : Bool) (o : Except Exc α) : List (Event α) :=
  .sent o :: (match o with | .ok _ => [] | .error e => between sleepAfterRetryable e)

/-- What happens after the last exchange. -/
def final {α : Type} : Except Exc α → List (Event α)
  | .ok _ => []
  | .error e => if resetsAfter e then [.reset] else []

/-- The environment answering the n-th exchange with `outcome n` and logging everything. -/
def logging {α : Type} (outcome : Nat → Except Exc α) : Retry.Ops (List (Event α)) α where
  attempt n := fun log => (outcome n, log ++ [.sent (outcome n)])
  reset := fun log => (.ok (), log ++ [.reset])
  sleep := fun log => (.ok (), log ++ [.sleep])

/-! ## Observing the loop in an arbitrary environment -/

/-- As `Event`, with the outcome of `reset()` and of the sleep. -/
inductive TEvent (α : Type) where
  | sent (outcome : Except Exc α)
  | reset (outcome : Except Exc Unit)
  | sleep (outcome : Except Exc Unit)

/-- Is the event a transport exchange? -/
def TEvent.isSent {α : Type} : TEvent α → Bool
  | .sent _ => true
  | _ => false

/-- An arbitrary environment together with a log of what the loop asks of it. -/
def traced {S α : Type} (ops : Retry.Ops S α) : Retry.Ops (S × List (TEvent α)) α where
  attempt n := fun (s, log) => match ops.attempt n s with | (o, s') => (o, s', log ++ [.sent o])
  reset := fun (s, log) => match ops.reset s with | (o, s') => (o, s', log ++ [.reset o])
  sleep := fun (s, log) => match ops.sleep s with | (o, s') => (o, s', log ++ [.sleep o])

theorem traced_attempt {S α : Type} (ops : Retry.Ops S α) (n : Nat) (s : S) (log : List (TEvent α)) :
    (traced ops).attempt n (s, log) =
      ((ops.attempt n s).1, (ops.attempt n s).2, log ++ [.sent (ops.attempt n s).1]) := rfl
theorem traced_reset {S α : Type} (ops : Retry.Ops S α) (s : S) (log : List (TEvent α)) :
    (traced ops).reset (s, log) = ((ops.reset s).1, (ops.reset s).2, log ++ [.reset (ops.reset s).1]) := rfl
theorem traced_sleep {S α : Type} (ops : Retry.Ops S α) (s : S) (log : List (TEvent α)) :
    (traced ops).sleep (s, log) = ((ops.sleep s).1, (ops.sleep s).2, log ++ [.sleep (ops.sleep s).1]) := rfl

/-- After an exchange that failed with a library error other than a connection error, the next thing that
happens (if anything) is a reset of the transport. -/
def ResetsRespected {α : Type} (log : List (TEvent α)) : Prop :=
  ∀ pre e post, log = pre ++ .sent (.error e) :: post → resetsAfter e = true →
    post = [] ∨ ∃ o post', post = .reset o :: post'

end Kasa.RetrySpec
