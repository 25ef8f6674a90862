import Verif.Py.Monad
/-!
# The retry loops of the protocols

Models `IotProtocol._query` (kasa/protocols/iotprotocol.py:85-137) and `SmartProtocol._query`
(kasa/protocols/smartprotocol.py:137-199).  The two differ only in that the latter also sleeps after a retryable error
(smartprotocol.py:176).  Logging is omitted.
-/

namespace Kasa.Retry
open PyM

/-- What the loop uses: one attempt (`_execute_query`, with the attempt number), `self._transport.reset()` and
`asyncio.sleep(BACKOFF_SECONDS_AFTER_TIMEOUT)`; each may raise. -/
structure Ops (S α : Type) where
  attempt : Nat → PyM S α
  reset : PyM S Unit
  sleep : PyM S Unit

variable {S α : Type}

/-- Body of the `for retry in range(retry_count + 1)` loop: iotprotocol.py:86-134 / smartprotocol.py:138-196.
The `except` clauses are tried in source order; anything that is not a `KasaException` passes through. -/
def loop (sleepAfterRetryable : Bool) (ops : Ops S α) (retryCount : Int) : List Nat → PyM S α
  | [] => raise .kasa
  | retry :: rest =>
    tryExcept (ops.attempt retry) fun ex =>
      match ex with
      | .connection =>
        if (retry : Int) ≥ retryCount then raise ex
        else loop sleepAfterRetryable ops retryCount rest
      | .auth _ => do
        ops.reset
        raise ex
      | .retryable _ => do
        ops.reset
        if (retry : Int) ≥ retryCount then raise ex
        else if sleepAfterRetryable then do
          ops.sleep
          loop sleepAfterRetryable ops retryCount rest
        else loop sleepAfterRetryable ops retryCount rest
      | .timeout => do
        ops.reset
        if (retry : Int) ≥ retryCount then raise ex
        else do
          ops.sleep
          loop sleepAfterRetryable ops retryCount rest
      | .kasa | .unsupported | .device _ => do
        ops.reset
        raise ex
      | .other _ | .base => raise ex

/-- `IotProtocol._query` (iotprotocol.py:85-137). -/
def iotQuery (ops : Ops S α) (retryCount : Int) : PyM S α :=
  loop false ops retryCount (List.range (retryCount + 1).toNat)

/-- `SmartProtocol._query` (smartprotocol.py:137-199). -/
def smartQuery (ops : Ops S α) (retryCount : Int) : PyM S α :=
  loop true ops retryCount (List.range (retryCount + 1).toNat)

end Kasa.Retry
