import Verif.Py.Dict
/-!
# JSON-like Python values
-/

namespace Kasa

/-- A value as `json.loads` returns it.  Numbers are integers (floats do not occur in the modelled decisions,
except where a model says so explicitly). -/
inductive Json where
  | null
  | bool (b : Bool)
  | num (n : Int)
  | str (s : String)
  | arr (xs : List Json)
  | obj (kvs : List (String × Json))
  deriving Inhabited

namespace Json

mutual
/-- Structural equality test. -/
def beq : Json → Json → Bool
  | null, null => true
  | bool a, bool b => a == b
  | num a, num b => a == b
  | str a, str b => a == b
  | arr a, arr b => beqList a b
  | obj a, obj b => beqKvs a b
  | _, _ => false
def beqList : List Json → List Json → Bool
  | [], [] => true
  | a :: as, b :: bs => beq a b && beqList as bs
  | _, _ => false
def beqKvs : List (String × Json) → List (String × Json) → Bool
  | [], [] => true
  | (k, a) :: as, (l, b) :: bs => k == l && beq a b && beqKvs as bs
  | _, _ => false
end

mutual
theorem beq_iff : ∀ a b : Json, beq a b = true ↔ a = b
  | null, b => by cases b <;> simp [beq]
  | bool _, b => by cases b <;> simp [beq]
  | num _, b => by cases b <;> simp [beq]
  | str _, b => by cases b <;> simp [beq]
  | arr xs, b => by cases b <;> simp [beq, beqList_iff xs]
  | obj xs, b => by cases b <;> simp [beq, beqKvs_iff xs]
theorem beqList_iff : ∀ a b : List Json, beqList a b = true ↔ a = b
  | [], b => by cases b <;> simp [beqList]
  | x :: xs, b => by cases b <;> simp [beqList, beq_iff x, beqList_iff xs]
theorem beqKvs_iff : ∀ a b : List (String × Json), beqKvs a b = true ↔ a = b
  | [], b => by cases b <;> simp [beqKvs]
  | (k, x) :: xs, b => by
    cases b with
    | nil => simp [beqKvs]
    | cons y ys => obtain ⟨l, y⟩ := y; simp [beqKvs, beq_iff x, beqKvs_iff xs]
end

instance : DecidableEq Json := fun a b => decidable_of_iff _ (beq_iff a b)

/-- Python truth value (`bool(x)`). -/
def truthy : Json → Bool
  | null => false
  | bool b => b
  | num n => n != 0
  | str s => s != ""
  | arr xs => !xs.isEmpty
  | obj kvs => !kvs.isEmpty

/-- `x.get(k)` / `x[k]` on a dict value, `none` for a missing key or a non-dict. -/
def get? : Json → String → Option Json
  | obj kvs, k => Dict.get? kvs k
  | _, _ => none

end Json
end Kasa
