import Verif.Model.Exceptions
/-!
# Coroutines

A coroutine is what `await`s see of an `async def`: it performs primitive operations one after another and continues
according to their outcomes.  Between two operations other tasks may run.  Cancelling a task is an outcome of the
operation it awaits.
-/

namespace Kasa

/-- A coroutine with operations `Op`, whose outcomes are `R`, and that returns an `α` or raises. -/
inductive Co (Op R α : Type) where
  | ret (r : Except Exc α)
  | op (o : Op) (k : R → Co Op R α)

namespace Co
variable {Op R α β σ : Type}

/-- `x = await m; ...` -/
def bind : Co Op R α → (α → Co Op R β) → Co Op R β
  | .ret (.ok a), f => f a
  | .ret (.error e), _ => .ret (.error e)
  | .op o k, f => .op o fun r => bind (k r) f

/-- `try: await m  except ...: h`. -/
def tryExcept : Co Op R α → (Exc → Co Op R α) → Co Op R α
  | .ret (.ok a), _ => .ret (.ok a)
  | .ret (.error e), h => h e
  | .op o k, h => .op o fun r => tryExcept (k r) h

/-- `raise e`. -/
def raise (e : Exc) : Co Op R α := .ret (.error e)

/-- A complete run of a coroutine that nobody interrupts: the operations with their outcomes, the result and the state
of the world, which the operations change as `prim` allows. -/
inductive Run (prim : Op → σ → R → σ → Prop) : Co Op R α → σ → List (Op × R) → Except Exc α → σ → Prop where
  | ret (r : Except Exc α) (w : σ) : Run prim (.ret r) w [] r w
  | op {o : Op} {k : R → Co Op R α} {w w' w'' : σ} {x : R} {tr : List (Op × R)} {r : Except Exc α}
      (h : prim o w x w') (rest : Run prim (k x) w' tr r w'') : Run prim (.op o k) w ((o, x) :: tr) r w''

/-- The first part of a run, up to the point where the coroutine that remains is the given one. -/
inductive Partial (prim : Op → σ → R → σ → Prop) : Co Op R α → σ → List (Op × R) → Co Op R α → σ → Prop where
  | start (p : Co Op R α) (w : σ) : Partial prim p w [] p w
  | step {p : Co Op R α} {w w' w'' : σ} {o : Op} {k : R → Co Op R α} {x : R} {tr : List (Op × R)}
      (init : Partial prim p w tr (.op o k) w') (h : prim o w' x w'') : Partial prim p w (tr ++ [(o, x)]) (k x) w''

/-- Partial correctness: every complete run from a world satisfying `pre` ends with `post`. -/
def Sat (prim : Op → σ → R → σ → Prop) (pre : σ → Prop) (p : Co Op R α) (post : Except Exc α → σ → Prop) : Prop :=
  ∀ w, pre w → ∀ tr r w', Run prim p w tr r w' → post r w'

variable {prim : Op → σ → R → σ → Prop} {pre mid : σ → Prop} {post : Except Exc α → σ → Prop}

theorem Sat.ret {r : Except Exc α} (h : ∀ w, pre w → post r w) : Sat prim pre (.ret r) post := by
  intro w hw tr r' w' hr
  cases hr
  exact h w hw

theorem Sat.op {o : Op} {k : R → Co Op R α} (m : R → σ → Prop)
    (h1 : ∀ w x w', pre w → prim o w x w' → m x w') (h2 : ∀ x, Sat prim (m x) (k x) post) :
    Sat prim pre (.op o k) post := by
  intro w hw tr r w' hr
  cases hr with
  | op h rest => exact h2 _ _ (h1 _ _ _ hw h) _ _ _ rest

theorem Sat.weaken {p : Co Op R α} {pre' : σ → Prop} {post' : Except Exc α → σ → Prop} (h : Sat prim pre p post)
    (h1 : ∀ w, pre' w → pre w) (h2 : ∀ r w, post r w → post' r w) : Sat prim pre' p post' :=
  fun w hw tr r w' hr => h2 _ _ (h w (h1 w hw) tr r w' hr)

theorem Run.of_bind {m : Co Op R α} {f : α → Co Op R β} {w w' : σ} {tr : List (Op × R)} {r : Except Exc β}
    (h : Run prim (m.bind f) w tr r w') :
    (∃ e, r = .error e ∧ Run prim m w tr (.error e) w') ∨
    (∃ a w1 tr1 tr2, tr = tr1 ++ tr2 ∧ Run prim m w tr1 (.ok a) w1 ∧ Run prim (f a) w1 tr2 r w') := by
  induction m generalizing w tr with
  | ret r0 =>
    cases r0 with
    | ok a => exact Or.inr ⟨a, w, [], tr, rfl, .ret _ _, h⟩
    | error e =>
      simp only [bind] at h
      cases h
      exact Or.inl ⟨e, rfl, .ret _ _⟩
  | op o k ih =>
    simp only [bind] at h
    cases h with
    | op hp rest =>
      rcases ih _ rest with ⟨e, h1, h2⟩ | ⟨a, w1, tr1, tr2, h1, h2, h3⟩
      · exact Or.inl ⟨e, h1, .op hp h2⟩
      · exact Or.inr ⟨a, w1, _ :: tr1, tr2, by rw [h1]; rfl, .op hp h2, h3⟩

theorem Run.of_tryExcept {m : Co Op R α} {f : Exc → Co Op R α} {w w' : σ} {tr : List (Op × R)} {r : Except Exc α}
    (h : Run prim (m.tryExcept f) w tr r w') :
    (∃ a, r = .ok a ∧ Run prim m w tr (.ok a) w') ∨
    (∃ e w1 tr1 tr2, tr = tr1 ++ tr2 ∧ Run prim m w tr1 (.error e) w1 ∧ Run prim (f e) w1 tr2 r w') := by
  induction m generalizing w tr with
  | ret r0 =>
    cases r0 with
    | ok a =>
      simp only [tryExcept] at h
      cases h
      exact Or.inl ⟨a, rfl, .ret _ _⟩
    | error e => exact Or.inr ⟨e, w, [], tr, rfl, .ret _ _, h⟩
  | op o k ih =>
    simp only [tryExcept] at h
    cases h with
    | op hp rest =>
      rcases ih _ rest with ⟨e, h1, h2⟩ | ⟨a, w1, tr1, tr2, h1, h2, h3⟩
      · exact Or.inl ⟨e, h1, .op hp h2⟩
      · exact Or.inr ⟨a, w1, _ :: tr1, tr2, by rw [h1]; rfl, .op hp h2, h3⟩

theorem Sat.bind {β : Type} {m : Co Op R α} {f : α → Co Op R β} {post : Except Exc β → σ → Prop}
    (q : Except Exc α → σ → Prop) (h1 : Sat prim pre m q) (h2 : ∀ e w, q (.error e) w → post (.error e) w)
    (h3 : ∀ a, Sat prim (q (.ok a)) (f a) post) : Sat prim pre (m.bind f) post := by
  intro w hw tr r w' hr
  rcases hr.of_bind with ⟨e, rfl, hm⟩ | ⟨a, w1, tr1, tr2, _, hm, hf⟩
  · exact h2 _ _ (h1 _ hw _ _ _ hm)
  · exact h3 a _ (h1 _ hw _ _ _ hm) _ _ _ hf

theorem Sat.tryExcept {m : Co Op R α} {f : Exc → Co Op R α}
    (q : Except Exc α → σ → Prop) (h1 : Sat prim pre m q) (h2 : ∀ a w, q (.ok a) w → post (.ok a) w)
    (h3 : ∀ e, Sat prim (q (.error e)) (f e) post) : Sat prim pre (m.tryExcept f) post := by
  intro w hw tr r w' hr
  rcases hr.of_tryExcept with ⟨a, rfl, hm⟩ | ⟨e, w1, tr1, tr2, _, hm, hf⟩
  · exact h2 _ _ (h1 _ hw _ _ _ hm)
  · exact h3 e _ (h1 _ hw _ _ _ hm) _ _ _ hf

/-- A partial run that has reached the end is a complete run. -/
theorem Partial.run_from {p q : Co Op R α} {w w' w'' : σ} {tr tr' : List (Op × R)} {r : Except Exc α}
    (h : Partial prim p w tr q w') : Run prim q w' tr' r w'' → Run prim p w (tr ++ tr') r w'' := by
  induction h generalizing tr' with
  | start => intro h; exact h
  | step init hp ih =>
    intro h
    have := ih (.op hp h)
    simpa using this

theorem Partial.complete {p : Co Op R α} {w w' : σ} {tr : List (Op × R)} {r : Except Exc α}
    (h : Partial prim p w tr (.ret r) w') : Run prim p w tr r w' := by
  simpa using h.run_from (.ret r w')

end Co
end Kasa
