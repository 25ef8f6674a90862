import Verif.Model.HttpClient
/-!
# What C42 and C58 say, in terms of the requests that were sent
-/

namespace Kasa.HttpSpec

open Http

/-- The wait interval: a quarter of a second. -/
def quarter : Rat := 1 / 4

/-- By the time the `i`-th request was over, a connection error had been reported to the caller. -/
def troubled (log : List Sent) (i : Nat) : Prop :=
  ∃ k, k ≤ i ∧ ∃ s, log[k]? = some s ∧ s.result = .error .connection

/-- The request was answered, or ended with a connection error. -/
def Settled (s : Sent) : Prop := (∃ r, s.result = .ok r) ∨ s.result = .error .connection

/-- What a caller is told about a request that went wrong: connections that broke are connection errors, time limits
are time-outs, and everything else is the library's own exception; cancellation passes through. -/
def told : Fault → Exc
  | .disconnected => .connection
  | .osError => .connection
  | .serverTimeout => .timeout
  | .totalTimeout => .timeout
  | .other => .kasa
  | .cancelled => .base

end Kasa.HttpSpec
