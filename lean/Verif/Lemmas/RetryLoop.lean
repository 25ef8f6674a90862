import Verif.Spec.RetryLoop

namespace Kasa.Retry
open RetrySpec PyM

variable {α : Type}

theorem logging_attempt (o : Nat → Except Exc α) (n : Nat) (l : List (Event α)) :
    (logging o).attempt n l = (o n, l ++ [.sent (o n)]) := rfl
theorem logging_reset (o : Nat → Except Exc α) (l : List (Event α)) :
    (logging o).reset l = (.ok (), l ++ [.reset]) := rfl
theorem logging_sleep (o : Nat → Except Exc α) (l : List (Event α)) :
    (logging o).sleep l = (.ok (), l ++ [.sleep]) := rfl

theorem loop_spec (sl : Bool) (outcome : Nat → Except Exc α) (rc : Nat) (d start : Nat)
    (hd : start + d = rc) (log : List (Event α)) :
    ∃ n, start ≤ n ∧ n ≤ rc ∧
      (∀ i, start ≤ i → i < n → ∃ e, outcome i = .error e ∧ Transient e) ∧
      (n = rc ∨ ∀ e, outcome n = .error e → ¬ Transient e) ∧
      loop sl (logging outcome) rc (List.range' start (d + 1)) log =
        (outcome n, log ++ (List.range' start (n - start)).flatMap (fun i => retried sl (outcome i))
          ++ .sent (outcome n) :: final (outcome n)) := by
  induction d generalizing start log with
  | zero =>
    refine ⟨start, Nat.le_refl _, by omega, fun i h1 h2 => by omega, Or.inl (by omega), ?_⟩
    have hge : ((start : Int) ≥ (rc : Int)) := by omega
    simp only [Nat.zero_add, List.range'_one, loop, tryExcept, logging_attempt, Nat.sub_self,
      List.range'_zero, List.flatMap_nil, List.append_nil]
    cases ho : outcome start with
    | ok a => simp [final]
    | error e =>
      simp only
      cases e <;>
        simp [hge, final, resetsAfter, Exc.isKasa, bind_apply, logging_reset]
  | succ d ih =>
    have hlt : ¬ ((start : Int) ≥ (rc : Int)) := by omega
    rw [List.range'_succ]
    cases ho : outcome start with
    | ok a =>
      refine ⟨start, Nat.le_refl _, by omega, fun i h1 h2 => by omega, Or.inr (by simp [ho]), ?_⟩
      simp [loop, tryExcept, logging_attempt, ho, final]
    | error e =>
      by_cases ht : Transient e
      · obtain ⟨n, h1, h2, h3, h4, h5⟩ := ih (start + 1) (by omega)
          (log ++ .sent (outcome start) :: between sl e)
        refine ⟨n, by omega, h2, ?_, h4, ?_⟩
        · intro i hi1 hi2
          by_cases hi : i = start
          · subst hi; exact ⟨e, ho, ht⟩
          · exact h3 i (by omega) hi2
        · have hr : n - start = (n - (start + 1)) + 1 := by omega
          rw [hr, List.range'_succ (s := start) (n := n - (start + 1)), List.flatMap_cons]
          have e1 : loop sl (logging outcome) rc (start :: List.range' (start + 1) (d + 1)) log
              = loop sl (logging outcome) rc (List.range' (start + 1) (d + 1))
                (log ++ .sent (outcome start) :: between sl e) := by
            cases e <;> simp only [Transient] at ht <;> cases sl <;>
              simp [loop, tryExcept, ho, hlt, logging_attempt, logging_reset, logging_sleep, between, resetsAfter,
                Exc.isKasa, bind_apply]
          rw [e1, h5, ho]
          simp [retried]
      · refine ⟨start, Nat.le_refl _, by omega, fun i h1 h2 => by omega, Or.inr ?_, ?_⟩
        · intro e' he'; rw [ho] at he'; cases he'; exact ht
        · cases e <;> simp only [Transient, not_true_eq_false, not_false_eq_true] at ht <;>
            simp [loop, tryExcept, ho, logging_attempt, logging_reset, final, resetsAfter, Exc.isKasa, bind_apply]


/-- Every event the loop appends to the log, in any environment. -/
theorem traced_loop {S : Type} (sl : Bool) (ops : Ops S α) (rc : Int) (l : List Nat) (s : S)
    (log : List (TEvent α)) :
    ∃ suffix, (loop sl (traced ops) rc l (s, log)).2.2 = log ++ suffix ∧
      (suffix.filter TEvent.isSent).length ≤ l.length ∧
      ResetsRespected suffix ∧
      (∀ e, suffix.head? ≠ some (.reset e)) ∧
      (∀ e, suffix.head? ≠ some (.sleep e)) := by
  induction l generalizing s log with
  | nil => exact ⟨[], by simp [loop], by simp, by simp [ResetsRespected], by simp, by simp⟩
  | cons r rest ih =>
    -- the three shapes of what follows an exchange
    have hstop : ∀ o : Except Exc α, (∀ e, o = .error e → resetsAfter e = false) →
        ResetsRespected [TEvent.sent o] := by
      intro o ho pre e post h hr
      cases pre with
      | nil => simp at h; obtain ⟨h1, h2⟩ := h; rw [ho e h1] at hr; cases hr
      | cons p ps => simp at h
    have hreset : ∀ (o : Except Exc α) (x : Except Exc Unit),
        ResetsRespected [TEvent.sent o, .reset x] := by
      intro o x pre e post h hr
      cases pre with
      | nil => simp at h; right; exact ⟨x, [], by simp [h.2.symm]⟩
      | cons p ps =>
        cases ps with
        | nil => simp at h
        | cons q qs => simp at h
    have hrs : ∀ (o : Except Exc α) (x y : Except Exc Unit),
        ResetsRespected [TEvent.sent o, .reset x, .sleep y] := by
      intro o x y pre e post h hr
      cases pre with
      | nil => simp at h; right; exact ⟨x, [.sleep y], by simp [h.2.symm]⟩
      | cons p ps =>
        cases ps with
        | nil => simp at h
        | cons q qs =>
          cases qs with
          | nil => simp at h
          | cons z zs => simp at h
    have hcons : ∀ (o : Except Exc α) (tl : List (TEvent α)), (∀ e, o = .error e → resetsAfter e = false) →
        ResetsRespected tl → ResetsRespected (.sent o :: tl) := by
      intro o tl ho htl pre e post h hr
      cases pre with
      | nil => simp at h; rw [ho e h.1] at hr; cases hr
      | cons p ps => simp at h; exact htl ps e post h.2 hr
    have hcons1 : ∀ (o : Except Exc α) (x : Except Exc Unit) (tl : List (TEvent α)),
        ResetsRespected tl → ResetsRespected (.sent o :: .reset x :: tl) := by
      intro o x tl htl pre e post h hr
      cases pre with
      | nil => simp at h; right; exact ⟨x, tl, h.2.symm⟩
      | cons p ps =>
        cases ps with
        | nil => simp at h
        | cons q qs => simp at h; exact htl qs e post h.2.2 hr
    have hcons2 : ∀ (o : Except Exc α) (x y : Except Exc Unit) (tl : List (TEvent α)),
        ResetsRespected tl → ResetsRespected (.sent o :: .reset x :: .sleep y :: tl) := by
      intro o x y tl htl pre e post h hr
      cases pre with
      | nil => simp at h; right; exact ⟨x, _, h.2.symm⟩
      | cons p ps =>
        cases ps with
        | nil => simp at h
        | cons q qs =>
          cases qs with
          | nil => simp at h
          | cons z zs => simp at h; exact htl zs e post h.2.2.2 hr
    simp only [loop, tryExcept, traced_attempt]
    cases ha : ops.attempt r s with
    | mk o s1 =>
      cases o with
      | ok v =>
        refine ⟨[.sent (.ok v)], by simp, by simp [TEvent.isSent, List.filter], hstop _ (by simp), by simp, by simp⟩
      | error ex =>
        -- helper: stop right after the exchange
        have stop0 : resetsAfter ex = false → ∃ suffix : List (TEvent α),
            (log ++ [.sent (.error ex)] : List (TEvent α)) = log ++ suffix ∧
            (suffix.filter TEvent.isSent).length ≤ (r :: rest).length ∧ ResetsRespected suffix ∧
            (∀ e, suffix.head? ≠ some (.reset e)) ∧ (∀ e, suffix.head? ≠ some (.sleep e)) := by
          intro hra
          exact ⟨[.sent (.error ex)], rfl, by simp [TEvent.isSent, List.filter],
            hstop _ (by intro e he; cases he; exact hra), by simp, by simp⟩
        have stop1 : ∀ x : Except Exc Unit, ∃ suffix : List (TEvent α),
            (log ++ [.sent (.error ex), .reset x] : List (TEvent α)) = log ++ suffix ∧
            (suffix.filter TEvent.isSent).length ≤ (r :: rest).length ∧ ResetsRespected suffix ∧
            (∀ e, suffix.head? ≠ some (.reset e)) ∧ (∀ e, suffix.head? ≠ some (.sleep e)) := by
          intro x
          exact ⟨[.sent (.error ex), .reset x], rfl, by simp [TEvent.isSent, List.filter], hreset _ _,
            by simp, by simp⟩
        have stop2 : ∀ x y : Except Exc Unit, ∃ suffix : List (TEvent α),
            (log ++ [.sent (.error ex), .reset x, .sleep y] : List (TEvent α)) = log ++ suffix ∧
            (suffix.filter TEvent.isSent).length ≤ (r :: rest).length ∧ ResetsRespected suffix ∧
            (∀ e, suffix.head? ≠ some (.reset e)) ∧ (∀ e, suffix.head? ≠ some (.sleep e)) := by
          intro x y
          exact ⟨[.sent (.error ex), .reset x, .sleep y], rfl, by simp [TEvent.isSent, List.filter],
            hrs _ _ _, by simp, by simp⟩
        have go0 : resetsAfter ex = false → ∀ s1, ∃ suffix : List (TEvent α),
            (loop sl (traced ops) rc rest (s1, log ++ [.sent (.error ex)])).2.2 = log ++ suffix ∧
            (suffix.filter TEvent.isSent).length ≤ (r :: rest).length ∧ ResetsRespected suffix ∧
            (∀ e, suffix.head? ≠ some (.reset e)) ∧ (∀ e, suffix.head? ≠ some (.sleep e)) := by
          intro hra s1
          obtain ⟨sf, h1, h2, h3, _, _⟩ := ih s1 (log ++ [.sent (.error ex)])
          refine ⟨.sent (.error ex) :: sf, by rw [h1]; simp, ?_,
            hcons _ _ (by intro e he; cases he; exact hra) h3, by simp, by simp⟩
          simp [TEvent.isSent, List.filter]; exact h2
        have go1 : ∀ (x : Except Exc Unit) s1, ∃ suffix : List (TEvent α),
            (loop sl (traced ops) rc rest (s1, log ++ [.sent (.error ex), .reset x])).2.2 = log ++ suffix ∧
            (suffix.filter TEvent.isSent).length ≤ (r :: rest).length ∧ ResetsRespected suffix ∧
            (∀ e, suffix.head? ≠ some (.reset e)) ∧ (∀ e, suffix.head? ≠ some (.sleep e)) := by
          intro x s1
          obtain ⟨sf, h1, h2, h3, _, _⟩ := ih s1 (log ++ [.sent (.error ex), .reset x])
          refine ⟨.sent (.error ex) :: .reset x :: sf, by rw [h1]; simp, ?_, hcons1 _ _ _ h3, by simp,
            by simp⟩
          simp [TEvent.isSent, List.filter]; exact h2
        have go2 : ∀ (x y : Except Exc Unit) s1, ∃ suffix : List (TEvent α),
            (loop sl (traced ops) rc rest (s1, log ++ [.sent (.error ex), .reset x, .sleep y])).2.2
              = log ++ suffix ∧
            (suffix.filter TEvent.isSent).length ≤ (r :: rest).length ∧ ResetsRespected suffix ∧
            (∀ e, suffix.head? ≠ some (.reset e)) ∧ (∀ e, suffix.head? ≠ some (.sleep e)) := by
          intro x y s1
          obtain ⟨sf, h1, h2, h3, _, _⟩ := ih s1 (log ++ [.sent (.error ex), .reset x, .sleep y])
          refine ⟨.sent (.error ex) :: .reset x :: .sleep y :: sf, by rw [h1]; simp, ?_,
            hcons2 _ _ _ _ h3, by simp, by simp⟩
          simp [TEvent.isSent, List.filter]; exact h2
        cases ex with
        | connection =>
          simp only
          split
          · exact stop0 rfl
          · exact go0 rfl _
        | other n => exact stop0 rfl
        | base => exact stop0 rfl
        | auth c =>
          simp only [bind_apply, traced_reset]
          cases hr : ops.reset s1 with
          | mk x s2 => cases x <;> simpa using stop1 _
        | kasa =>
          simp only [bind_apply, traced_reset]
          cases hr : ops.reset s1 with
          | mk x s2 => cases x <;> simpa using stop1 _
        | unsupported =>
          simp only [bind_apply, traced_reset]
          cases hr : ops.reset s1 with
          | mk x s2 => cases x <;> simpa using stop1 _
        | device c =>
          simp only [bind_apply, traced_reset]
          cases hr : ops.reset s1 with
          | mk x s2 => cases x <;> simpa using stop1 _
        | retryable c =>
          simp only [bind_apply, traced_reset]
          cases hr : ops.reset s1 with
          | mk x s2 =>
            cases x with
            | error ee => simpa using stop1 (.error ee)
            | ok u =>
              simp only
              split
              · simpa using stop1 (.ok u)
              · cases sl with
                | false => simpa using go1 (.ok u) s2
                | true =>
                  simp only [if_true, bind_apply, traced_sleep]
                  cases hsl : ops.sleep s2 with
                  | mk y s3 =>
                    cases y with
                    | error ee => simpa using stop2 (.ok u) (.error ee)
                    | ok u' => simpa using go2 (.ok u) (.ok u') s3
        | timeout =>
          simp only [bind_apply, traced_reset]
          cases hr : ops.reset s1 with
          | mk x s2 =>
            cases x with
            | error ee => simpa using stop1 (.error ee)
            | ok u =>
              simp only
              split
              · simpa using stop1 (.ok u)
              · simp only [bind_apply, traced_sleep]
                cases hsl : ops.sleep s2 with
                | mk y s3 =>
                  cases y with
                  | error ee => simpa using stop2 (.ok u) (.error ee)
                  | ok u' => simpa using go2 (.ok u) (.ok u') s3

/-- A relation kept by every operation the loop uses is kept by the loop. -/
theorem loop_rel {S : Type} {R : S → S → Prop} (hrefl : ∀ s, R s s) (htrans : ∀ a b c, R a b → R b c → R a c)
    (sl : Bool) (ops : Ops S α) (h1 : ∀ n, PyM.Rel R (ops.attempt n)) (h2 : PyM.Rel R ops.reset)
    (h3 : PyM.Rel R ops.sleep) (rc : Int) (l : List Nat) : PyM.Rel R (loop sl ops rc l) := by
  induction l with
  | nil => exact PyM.Rel.raise hrefl _
  | cons n l ih =>
    unfold loop
    refine PyM.Rel.tryExcept htrans (h1 n) fun e => ?_
    cases e with
    | connection =>
      simp only
      split
      · exact PyM.Rel.raise hrefl _
      · exact ih
    | auth c => exact PyM.Rel.bind htrans h2 fun _ => PyM.Rel.raise hrefl _
    | retryable c =>
      refine PyM.Rel.bind htrans h2 fun _ => ?_
      split
      · exact PyM.Rel.raise hrefl _
      · split
        · exact PyM.Rel.bind htrans h3 fun _ => ih
        · exact ih
    | timeout =>
      refine PyM.Rel.bind htrans h2 fun _ => ?_
      split
      · exact PyM.Rel.raise hrefl _
      · exact PyM.Rel.bind htrans h3 fun _ => ih
    | kasa => exact PyM.Rel.bind htrans h2 fun _ => PyM.Rel.raise hrefl _
    | unsupported => exact PyM.Rel.bind htrans h2 fun _ => PyM.Rel.raise hrefl _
    | device c => exact PyM.Rel.bind htrans h2 fun _ => PyM.Rel.raise hrefl _
    | other n => exact PyM.Rel.raise hrefl _
    | base => exact PyM.Rel.raise hrefl _

end Kasa.Retry
