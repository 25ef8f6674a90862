import Verif.Py.Coroutine
/-!
# Specification: calls made one after another
-/

namespace Kasa.LockSpec
variable {Op R α σ : Type}

/-- One call: the caller, what it did to the world, and its result. -/
structure Call (Op R α : Type) where
  task : Nat
  trace : List (Op × R)
  result : Except Exc α

/-- The calls were made strictly one after another, starting in world `w0`, each running its own program to the end
before the next one starts. -/
inductive Serial (prim : Op → σ → R → σ → Prop) (prog : Nat → Co Op R α) (w0 : σ) :
    List (Call Op R α) → σ → Prop where
  | nil : Serial prim prog w0 [] w0
  | snoc {calls : List (Call Op R α)} {w w' : σ} {c : Call Op R α} (h : Serial prim prog w0 calls w)
      (hr : Co.Run prim (prog c.task) w c.trace c.result w') : Serial prim prog w0 (calls ++ [c]) w'

/-- What an observer of the world sees of one call. -/
def seen (t : Nat) (tr : List (Op × R)) : List (Nat × Op × R) := tr.map fun x => (t, x.1, x.2)

/-- What an observer of the world sees of several calls. -/
def seenAll (calls : List (Call Op R α)) : List (Nat × Op × R) := calls.flatMap fun c => seen c.task c.trace

end Kasa.LockSpec
