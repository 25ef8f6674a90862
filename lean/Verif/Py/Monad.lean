import Verif.Model.Exceptions
/-!
# Python computations with state and exceptions

`PyM S α`: a Python (async) function body acting on a state `S`, which returns a value or raises.  As in Python, the
effects made before an exception is raised persist.
-/

namespace Kasa

/-- A computation that may raise; the state changes persist when it does. -/
def PyM (S α : Type) : Type := S → Except Exc α × S

namespace PyM
variable {S α β γ : Type}

/-- Sequencing: an exception skips the rest. -/
protected def bind (m : PyM S α) (f : α → PyM S β) : PyM S β := fun s =>
  match m s with
  | (.ok a, s') => f a s'
  | (.error e, s') => (.error e, s')

/-- `return a`. -/
protected def pure (a : α) : PyM S α := fun s => (.ok a, s)

instance : Monad (PyM S) where
  pure := PyM.pure
  bind := PyM.bind

/-- `raise e`. -/
def raise (e : Exc) : PyM S α := fun s => (.error e, s)

/-- `try: m  except ... : h`; the handler decides by the exception (re-raising what it does not catch). -/
def tryExcept (m : PyM S α) (h : Exc → PyM S α) : PyM S α := fun s =>
  match m s with
  | (.ok a, s') => (.ok a, s')
  | (.error e, s') => h e s'

/-- `try: m  finally: f`; an exception of `f` replaces the outcome. -/
def tryFinally (m : PyM S α) (f : PyM S Unit) : PyM S α := fun s =>
  match m s with
  | (r, s') =>
    match f s' with
    | (.ok _, s'') => (r, s'')
    | (.error e, s'') => (.error e, s'')

/-- Read the state. -/
def getS : PyM S S := fun s => (.ok s, s)

/-- Change the state. -/
def modifyS (f : S → S) : PyM S Unit := fun s => (.ok (), f s)

/-- Run a pure computation that may raise. -/
def lift : Except Exc α → PyM S α
  | .ok a => PyM.pure a
  | .error e => raise e

/-- `for x in xs: acc = body(x, acc)`. -/
def foldM {ι : Type} (body : α → ι → PyM S α) (acc : α) : List ι → PyM S α
  | [] => PyM.pure acc
  | x :: xs => PyM.bind (body acc x) fun acc' => foldM body acc' xs

/-- `for x in xs: body(x)`. -/
def forEach {ι : Type} (body : ι → PyM S Unit) : List ι → PyM S Unit
  | [] => PyM.pure ()
  | x :: xs => PyM.bind (body x) fun _ => forEach body xs

@[simp] theorem pure_apply (a : α) (s : S) : (Pure.pure a : PyM S α) s = (.ok a, s) := rfl
@[simp] theorem pure'_apply (a : α) (s : S) : (PyM.pure a : PyM S α) s = (.ok a, s) := rfl
@[simp] theorem raise_apply (e : Exc) (s : S) : (raise e : PyM S α) s = (.error e, s) := rfl
@[simp] theorem get_apply (s : S) : (getS : PyM S S) s = (.ok s, s) := rfl
@[simp] theorem modify_apply (f : S → S) (s : S) : modifyS f s = (.ok (), f s) := rfl

@[simp] theorem lift_ok_apply (a : α) (s : S) : (lift (.ok a) : PyM S α) s = (.ok a, s) := rfl
@[simp] theorem lift_error_apply (e : Exc) (s : S) : (lift (.error e) : PyM S α) s = (.error e, s) := rfl
theorem lift_apply (x : Except Exc α) (s : S) : (lift x : PyM S α) s = (x, s) := by cases x <;> rfl

theorem bind_apply (m : PyM S α) (f : α → PyM S β) (s : S) :
    (m >>= f) s = match m s with
      | (.ok a, s') => f a s'
      | (.error e, s') => (.error e, s') := rfl

theorem bind'_eq (m : PyM S α) (f : α → PyM S β) : PyM.bind m f = (m >>= f) := rfl

theorem bind_ok {m : PyM S α} {f : α → PyM S β} {s s' : S} {a : α} (h : m s = (.ok a, s')) :
    (m >>= f) s = f a s' := by rw [bind_apply, h]

theorem bind_error {m : PyM S α} {f : α → PyM S β} {s s' : S} {e : Exc} (h : m s = (.error e, s')) :
    (m >>= f) s = (.error e, s') := by rw [bind_apply, h]

@[simp] theorem pure_bind' (a : α) (f : α → PyM S β) : (Pure.pure a >>= f) = f a := rfl
@[simp] theorem raise_bind (e : Exc) (f : α → PyM S β) : (raise e >>= f) = raise e := rfl

theorem tryExcept_ok {m : PyM S α} {h : Exc → PyM S α} {s s' : S} {a : α} (hm : m s = (.ok a, s')) :
    tryExcept m h s = (.ok a, s') := by unfold tryExcept; rw [hm]

theorem tryExcept_error {m : PyM S α} {h : Exc → PyM S α} {s s' : S} {e : Exc} (hm : m s = (.error e, s')) :
    tryExcept m h s = h e s' := by unfold tryExcept; rw [hm]

/-- Inversion of a successful `bind`. -/
theorem bind_eq_ok {m : PyM S α} {f : α → PyM S β} {s s'' : S} {b : β}
    (h : (m >>= f) s = (.ok b, s'')) : ∃ a s', m s = (.ok a, s') ∧ f a s' = (.ok b, s'') := by
  rw [bind_apply] at h
  split at h
  · rename_i a s' hm
    exact ⟨a, s', hm, h⟩
  · simp at h

/-- Inversion of a raising `bind`. -/
theorem bind_eq_error {m : PyM S α} {f : α → PyM S β} {s s'' : S} {e : Exc}
    (h : (m >>= f) s = (.error e, s'')) :
    m s = (.error e, s'') ∨ ∃ a s', m s = (.ok a, s') ∧ f a s' = (.error e, s'') := by
  rw [bind_apply] at h
  split at h
  · rename_i a s' hm
    exact Or.inr ⟨a, s', hm, h⟩
  · rename_i e' s' hm
    simp only [Prod.mk.injEq, Except.error.injEq] at h
    obtain ⟨rfl, rfl⟩ := h
    exact Or.inl hm

/-! ## Relations between the state before and after, whatever the outcome -/

/-- Every run of `m` relates its start state to its end state by `R`. -/
def Rel (R : S → S → Prop) (m : PyM S α) : Prop := ∀ s, R s (m s).2

theorem Rel.pure {R : S → S → Prop} (hrefl : ∀ s, R s s) (a : α) : Rel R (Pure.pure a : PyM S α) :=
  fun s => hrefl s

theorem Rel.raise {R : S → S → Prop} (hrefl : ∀ s, R s s) (e : Exc) : Rel R (PyM.raise e : PyM S α) :=
  fun s => hrefl s

theorem Rel.lift {R : S → S → Prop} (hrefl : ∀ s, R s s) (x : Except Exc α) : Rel R (PyM.lift x : PyM S α) :=
  fun s => by rw [lift_apply]; exact hrefl s

theorem Rel.get {R : S → S → Prop} (hrefl : ∀ s, R s s) : Rel R (PyM.getS : PyM S S) :=
  fun s => hrefl s

theorem Rel.bind {R : S → S → Prop} (htrans : ∀ a b c, R a b → R b c → R a c) {m : PyM S α}
    {f : α → PyM S β} (hm : Rel R m) (hf : ∀ a, Rel R (f a)) : Rel R (m >>= f) := by
  intro s
  have h1 := hm s
  rw [bind_apply]
  revert h1
  cases m s with
  | mk r s' =>
    cases r with
    | ok a => intro h1; exact htrans _ _ _ h1 (hf a s')
    | error e => intro h1; exact h1

theorem Rel.foldM {ι : Type} {R : S → S → Prop} (hrefl : ∀ s, R s s)
    (htrans : ∀ a b c, R a b → R b c → R a c) {body : α → ι → PyM S α}
    (h : ∀ acc x, Rel R (body acc x)) (acc : α) (xs : List ι) : Rel R (PyM.foldM body acc xs) := by
  induction xs generalizing acc with
  | nil => exact Rel.pure hrefl acc
  | cons x xs ih => exact Rel.bind htrans (h acc x) fun a => ih a

theorem Rel.forEach {ι : Type} {R : S → S → Prop} (hrefl : ∀ s, R s s)
    (htrans : ∀ a b c, R a b → R b c → R a c) {body : ι → PyM S Unit}
    (h : ∀ x, Rel R (body x)) (xs : List ι) : Rel R (PyM.forEach body xs) := by
  induction xs with
  | nil => exact Rel.pure hrefl ()
  | cons x xs ih => exact Rel.bind htrans (h x) fun _ => ih

theorem Rel.tryExcept {R : S → S → Prop} (htrans : ∀ a b c, R a b → R b c → R a c) {m : PyM S α}
    {h : Exc → PyM S α} (hm : Rel R m) (hh : ∀ e, Rel R (h e)) : Rel R (PyM.tryExcept m h) := by
  intro s
  have h1 := hm s
  unfold PyM.tryExcept
  revert h1
  cases m s with
  | mk r s' =>
    cases r with
    | ok a => intro h1; exact h1
    | error e => intro h1; exact htrans _ _ _ h1 (hh e s')

theorem foldM_cons {ι : Type} (body : α → ι → PyM S α) (acc : α) (x : ι) (xs : List ι) :
    foldM body acc (x :: xs) = (body acc x >>= fun acc' => foldM body acc' xs) := rfl

theorem foldM_nil {ι : Type} (body : α → ι → PyM S α) (acc : α) :
    foldM body acc ([] : List ι) = Pure.pure acc := rfl

/-! ## A small Hoare logic -/

/-- From a state satisfying `P`, `m` ends normally in `Q a s'` or raises in `E e s'`. -/
def Triple (P : S → Prop) (m : PyM S α) (Q : α → S → Prop) (E : Exc → S → Prop) : Prop :=
  ∀ s, P s → match m s with
    | (.ok a, s') => Q a s'
    | (.error e, s') => E e s'

theorem Triple.pure {P : S → Prop} {a : α} {Q : α → S → Prop} {E : Exc → S → Prop}
    (h : ∀ s, P s → Q a s) : Triple P (Pure.pure a : PyM S α) Q E := fun s hs => h s hs

theorem Triple.raise {P : S → Prop} {e : Exc} {Q : α → S → Prop} {E : Exc → S → Prop}
    (h : ∀ s, P s → E e s) : Triple P (PyM.raise e : PyM S α) Q E := fun s hs => h s hs

theorem Triple.bind {P : S → Prop} {m : PyM S α} {f : α → PyM S β} {R : α → S → Prop}
    {Q : β → S → Prop} {E : Exc → S → Prop} (hm : Triple P m R E) (hf : ∀ a, Triple (R a) (f a) Q E) :
    Triple P (m >>= f) Q E := by
  intro s hs
  have := hm s hs
  rw [bind_apply]
  revert this
  cases m s with
  | mk r s' =>
    cases r with
    | ok a => intro h; exact hf a s' h
    | error e => intro h; exact h

theorem Triple.get {P : S → Prop} {Q : S → S → Prop} {E : Exc → S → Prop} (h : ∀ s, P s → Q s s) :
    Triple P PyM.getS Q E := fun s hs => h s hs

theorem Triple.modify {P : S → Prop} {f : S → S} {Q : Unit → S → Prop} {E : Exc → S → Prop}
    (h : ∀ s, P s → Q () (f s)) : Triple P (PyM.modifyS f) Q E := fun s hs => h s hs

theorem Triple.tryExcept {P : S → Prop} {m : PyM S α} {h : Exc → PyM S α} {Q : α → S → Prop}
    {R E : Exc → S → Prop} (hm : Triple P m Q R) (hh : ∀ e, Triple (R e) (h e) Q E) :
    Triple P (PyM.tryExcept m h) Q E := by
  intro s hs
  have := hm s hs
  unfold PyM.tryExcept
  revert this
  cases m s with
  | mk r s' =>
    cases r with
    | ok a => intro hq; exact hq
    | error e => intro hr; exact hh e s' hr

theorem Triple.conseq {P P' : S → Prop} {m : PyM S α} {Q Q' : α → S → Prop} {E E' : Exc → S → Prop}
    (h : Triple P' m Q' E') (hp : ∀ s, P s → P' s) (hq : ∀ a s, Q' a s → Q a s)
    (he : ∀ e s, E' e s → E e s) : Triple P m Q E := by
  intro s hs
  have := h s (hp s hs)
  revert this
  cases m s with
  | mk r s' =>
    cases r with
    | ok a => intro h; exact hq a s' h
    | error e => intro h; exact he e s' h

theorem Triple.forEach {ι : Type} {body : ι → PyM S Unit} {I : S → Prop} {E : Exc → S → Prop}
    (xs : List ι) (h : ∀ x ∈ xs, Triple I (body x) (fun _ => I) E) :
    Triple I (PyM.forEach body xs) (fun _ => I) E := by
  induction xs with
  | nil => exact fun s hs => hs
  | cons x xs ih =>
    exact Triple.bind (h x (by simp)) fun _ => ih fun y hy => h y (by simp [hy])

theorem Triple.foldM {ι : Type} {body : α → ι → PyM S α} {I : α → List ι → S → Prop}
    {E : Exc → S → Prop} (xs : List ι)
    (h : ∀ acc x rest, Triple (I acc (x :: rest)) (body acc x) (fun a => I a rest) E) (acc : α) :
    Triple (I acc xs) (PyM.foldM body acc xs) (fun a => I a []) E := by
  induction xs generalizing acc with
  | nil => exact fun s hs => hs
  | cons x xs ih => exact Triple.bind (h acc x xs) fun a => ih a

theorem Triple.lift {P : S → Prop} {x : Except Exc α} {Q : α → S → Prop} {E : Exc → S → Prop}
    (hok : ∀ a s, x = .ok a → P s → Q a s) (herr : ∀ e s, x = .error e → P s → E e s) :
    Triple P (PyM.lift x) Q E := by
  cases x with
  | ok a => exact fun s hs => hok a s rfl hs
  | error e => exact fun s hs => herr e s rfl hs

/-- Use of a triple on a concrete successful run. -/
theorem Triple.ok {P : S → Prop} {m : PyM S α} {Q : α → S → Prop} {E : Exc → S → Prop}
    (h : Triple P m Q E) {s s' : S} {a : α} (hs : P s) (hm : m s = (.ok a, s')) : Q a s' := by
  have := h s hs
  rw [hm] at this
  exact this

/-- Use of a triple on a concrete raising run. -/
theorem Triple.error {P : S → Prop} {m : PyM S α} {Q : α → S → Prop} {E : Exc → S → Prop}
    (h : Triple P m Q E) {s s' : S} {e : Exc} (hs : P s) (hm : m s = (.error e, s')) : E e s' := by
  have := h s hs
  rw [hm] at this
  exact this

end PyM
end Kasa
