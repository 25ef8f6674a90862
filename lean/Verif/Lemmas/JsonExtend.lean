import Verif.Model.JsonText
/-!
# The reader does not look at what comes after a value
-/

namespace Kasa.JsonText

theorem skip_append {s : List Char} {c : Char} {r : List Char} (h : skip s = c :: r) (q : List Char) :
    skip (s ++ q) = c :: (r ++ q) := by
  unfold skip at *
  induction s with
  | nil => cases h
  | cons a s ih =>
    rw [List.cons_append, List.dropWhile]
    rw [List.dropWhile] at h
    cases ha : isSpace a with
    | true =>
      simp only [ha] at h
      exact ih h
    | false =>
      simp only [ha] at h
      cases h
      rfl

theorem push_append {n : Nat} {r r' : Option (List Nat × List Char)} {x : List Nat × List Char} {q : List Char}
    (h : push n r = some x) (hr : ∀ y, r = some y → r' = some (y.1, y.2 ++ q)) : push n r' = some (x.1, x.2 ++ q) := by
  cases r with
  | none => cases h
  | some y =>
    cases h
    rw [hr y rfl]
    rfl

theorem codes_append : ∀ (s : List Char) (a : At) (x : List Nat × List Char) (q : List Char),
    codes a s = some x → codes a (s ++ q) = some (x.1, x.2 ++ q)
  | [], a, x, q, h => by cases a <;> cases h
  | c :: r, .text, x, q, h => by
    rw [List.cons_append, codes]
    rw [codes] at h
    split at h
    · rename_i hc; rw [if_pos hc]; cases h; rfl
    · rename_i hc
      rw [if_neg hc]
      split at h
      · rename_i hc; rw [if_pos hc]; exact codes_append r _ x q h
      · rename_i hc
        rw [if_neg hc]
        split at h
        · cases h
        · rename_i hc
          rw [if_neg hc]
          exact push_append h (fun y hy => codes_append r _ y q hy)
  | c :: r, .escape, x, q, h => by
    rw [List.cons_append, codes]
    rw [codes] at h
    split at h
    · rename_i hc; rw [if_pos hc]; exact codes_append r _ x q h
    · rename_i hc
      rw [if_neg hc]
      cases hu : unescape c with
      | none => rw [hu] at h; cases h
      | some n =>
        rw [hu] at h
        exact push_append h (fun y hy => codes_append r _ y q hy)
  | c :: r, .hex m acc, x, q, h => by
    rw [List.cons_append, codes]
    rw [codes] at h
    cases hu : hexVal c with
    | none => rw [hu] at h; cases h
    | some n =>
      rw [hu] at h
      simp only at h ⊢
      split at h
      · rename_i hc; rw [if_pos hc]; exact push_append h (fun y hy => codes_append r _ y q hy)
      · rename_i hc; rw [if_neg hc]; exact codes_append r _ x q h

theorem string_append (s : List Char) (x : String × List Char) (q : List Char) (h : string s = some x) :
    string (s ++ q) = some (x.1, x.2 ++ q) := by
  unfold string at *
  cases hc : codes .text s with
  | none => rw [hc] at h; cases h
  | some y =>
    rw [hc] at h
    have h' : ((join none y.1).bind fun cs => some (String.ofList cs, y.2)) = some x := h
    rw [codes_append s _ y q hc]
    show ((join none y.1).bind fun cs => some (String.ofList cs, y.2 ++ q)) = _
    cases hj : join none y.1 with
    | none => rw [hj] at h'; cases h'
    | some cs =>
      rw [hj] at h'
      cases h'
      rfl

theorem literal_append (w : List Char) (v : Json) (s : List Char) (x : Json × List Char) (q : List Char)
    (h : literal w v s = some x) : literal w v (s ++ q) = some (x.1, x.2 ++ q) := by
  unfold literal at *
  split at h
  · rename_i hp
    rw [List.isPrefixOf_iff_prefix] at hp
    have hp' : w.isPrefixOf (s ++ q) = true := by
      rw [List.isPrefixOf_iff_prefix]
      exact List.IsPrefix.trans hp (List.prefix_append ..)
    rw [if_pos hp']
    cases h
    rw [List.drop_append_of_le_length hp.length_le]
  · cases h

theorem dropWhile_append {p : Char → Bool} {s : List Char} (h : s.dropWhile p ≠ []) (q : List Char) :
    (s ++ q).dropWhile p = s.dropWhile p ++ q ∧ (s ++ q).takeWhile p = s.takeWhile p := by
  induction s with
  | nil => exact absurd rfl h
  | cons a s ih =>
    rw [List.cons_append, List.dropWhile, List.dropWhile, List.takeWhile, List.takeWhile]
    cases ha : p a with
    | true =>
      have := ih (by rw [List.dropWhile, ha] at h; exact h)
      exact ⟨this.1, congrArg (a :: ·) this.2⟩
    | false => exact ⟨rfl, rfl⟩

theorem digits_append (s : List Char) (x : Nat × List Char) (q : List Char) (h : digits s = some x) (hr : x.2 ≠ []) :
    digits (s ++ q) = some (x.1, x.2 ++ q) := by
  cases s with
  | nil => cases h
  | cons c r =>
    rw [List.cons_append, digits]
    rw [digits] at h
    split at h
    · rename_i hc; rw [if_pos hc]; cases h; rfl
    · rename_i hc
      rw [if_neg hc]
      split at h
      · rename_i hd
        rw [if_pos hd]
        cases h
        have := dropWhile_append (s := c :: r) hr q
        rw [List.cons_append] at this
        rw [this.1, this.2]
      · cases h

theorem number_append (s : List Char) (x : Json × List Char) (q : List Char) (h : number s = some x) (hr : x.2 ≠ []) :
    number (s ++ q) = some (x.1, x.2 ++ q) := by
  cases s with
  | nil => cases h
  | cons c r =>
    rw [List.cons_append, number]
    rw [number] at h
    have fl : ∀ rest : List Char, rest ≠ [] → isFloat (rest ++ q) = isFloat rest := by
      intro rest hne
      cases rest with
      | nil => exact absurd rfl hne
      | cons _ _ => rfl
    by_cases hc : c = '-'
    · rw [if_pos hc] at h ⊢
      cases hd : digits r with
      | none => rw [hd] at h; cases h
      | some y =>
        rw [hd] at h
        simp only [Option.map] at h
        cases hf : isFloat y.2 with
        | true => rw [hf] at h; cases h
        | false =>
          rw [hf] at h
          cases h
          rw [digits_append r y q hd hr]
          simp only [Option.map, fl y.2 hr, hf]
          rfl
    · rw [if_neg hc] at h ⊢
      cases hd : digits (c :: r) with
      | none => rw [hd] at h; cases h
      | some y =>
        rw [hd] at h
        simp only [Option.map] at h
        cases hf : isFloat y.2 with
        | true => rw [hf] at h; cases h
        | false =>
          rw [hf] at h
          cases h
          have := digits_append (c :: r) y q hd hr
          rw [List.cons_append] at this
          rw [this]
          simp only [Option.map, fl y.2 hr, hf]
          rfl

theorem map_append {α β : Type} {o o' : Option (α × List Char)} {g : α → β} {x : β × List Char} {q : List Char}
    (h : o.map (fun x => (g x.1, x.2)) = some x) (hn : ∀ y, o = some y → o' = some (y.1, y.2 ++ q)) :
    o'.map (fun x => (g x.1, x.2)) = some (x.1, x.2 ++ q) := by
  cases o with
  | none => cases h
  | some y =>
    cases h
    rw [hn y rfl]
    rfl

theorem head_append {s : List Char} {d : Char} (h : (skip s).head? = some d) (q : List Char) :
    (skip (s ++ q)).head? = some d ∧ (skip (s ++ q)).tail = (skip s).tail ++ q := by
  cases hs : skip s with
  | nil => rw [hs] at h; cases h
  | cons c r =>
    rw [hs] at h
    rw [skip_append hs q]
    exact ⟨h, rfl⟩

/-- Does a value end by itself, unlike a number? -/
def Closed (v : Json) : Prop := ∀ n, v ≠ .num n

theorem number_num (s : List Char) (x : Json × List Char) (h : number s = some x) : ∃ n, x.1 = .num n := by
  cases s with
  | nil => cases h
  | cons c r =>
    rw [number] at h
    split at h
    · split at h
      · cases h
      · cases h; exact ⟨_, rfl⟩
    · cases h

/-- A value is read in the same way when more text follows. -/
theorem extend (q : List Char) : ∀ fuel : Nat,
    (∀ s x, value fuel s = some x → x.2 ≠ [] ∨ Closed x.1 → value fuel (s ++ q) = some (x.1, x.2 ++ q)) ∧
    (∀ s x, items fuel s = some x → items fuel (s ++ q) = some (x.1, x.2 ++ q)) ∧
    (∀ s x, members fuel s = some x → members fuel (s ++ q) = some (x.1, x.2 ++ q)) ∧
    (∀ s x, member fuel s = some x → x.2 ≠ [] → member fuel (s ++ q) = some (x.1, x.2 ++ q))
  | 0 => ⟨fun _ _ h => (by rw [value] at h; cases h), fun _ _ h => (by rw [items] at h; cases h),
      fun _ _ h => (by rw [members] at h; cases h), fun _ _ h => (by rw [member] at h; cases h)⟩
  | fuel + 1 => by
    obtain ⟨iv, ii, im, ik⟩ := extend q fuel
    refine ⟨?_, ?_, ?_, ?_⟩
    · intro s x h ho
      rw [value] at h ⊢
      cases hc : skip s with
      | nil => rw [hc] at h; cases h
      | cons c r =>
        rw [hc] at h
        rw [skip_append hc q]
        simp only at h ⊢
        split at h
        · rename_i e
          rw [if_pos e]
          exact map_append h (fun y hy => string_append r y q hy)
        · rename_i e
          rw [if_neg e]
          split at h
          · rename_i e
            rw [if_pos e]
            split at h
            · rename_i e
              obtain ⟨e1, e2⟩ := head_append e q
              rw [if_pos e1, e2]
              cases h
              rfl
            · rename_i e
              have : (skip (r ++ q)).head? ≠ some ']' := by
                cases hs : skip r with
                | nil =>
                  cases hi : items fuel r with
                  | none => rw [hi] at h; cases h
                  | some y =>
                    cases fuel with
                    | zero => rw [items] at hi; cases hi
                    | succ f =>
                      cases f with
                      | zero => rw [items, value] at hi; cases hi
                      | succ f => rw [items, value, hs] at hi; cases hi
                | cons d r' =>
                  rw [skip_append hs q]
                  rw [hs] at e
                  exact e
              rw [if_neg this]
              exact map_append h (fun y hy => ii r y hy)
          · rename_i e
            rw [if_neg e]
            split at h
            · rename_i e
              rw [if_pos e]
              split at h
              · rename_i e
                obtain ⟨e1, e2⟩ := head_append e q
                rw [if_pos e1, e2]
                cases h
                rfl
              · rename_i e
                have : (skip (r ++ q)).head? ≠ some '}' := by
                  cases hs : skip r with
                  | nil =>
                    cases hi : members fuel r with
                    | none => rw [hi] at h; cases h
                    | some y =>
                      cases fuel with
                      | zero => rw [members] at hi; cases hi
                      | succ f =>
                        cases f with
                        | zero => rw [members, member] at hi; cases hi
                        | succ f => rw [members, member, hs] at hi; cases hi
                  | cons d r' =>
                    rw [skip_append hs q]
                    rw [hs] at e
                    exact e
                rw [if_neg this]
                exact map_append (g := fun m => Json.obj (Dict.update [] m)) h (fun y hy => im r y hy)
            · rename_i e
              rw [if_neg e]
              split at h
              · rename_i e; rw [if_pos e]; exact literal_append _ _ _ _ q h
              · rename_i e
                rw [if_neg e]
                split at h
                · rename_i e; rw [if_pos e]; exact literal_append _ _ _ _ q h
                · rename_i e
                  rw [if_neg e]
                  split at h
                  · rename_i e; rw [if_pos e]; exact literal_append _ _ _ _ q h
                  · rename_i e
                    rw [if_neg e]
                    have hne : x.2 ≠ [] := by
                      rcases ho with ho | ho
                      · exact ho
                      · obtain ⟨n, hn⟩ := number_num _ _ h
                        exact absurd hn (ho n)
                    exact number_append (c :: r) x q h hne
    · intro s x h
      rw [items] at h ⊢
      cases hv : value fuel s with
      | none => rw [hv] at h; cases h
      | some y =>
        obtain ⟨v, r⟩ := y
        rw [hv] at h
        simp only at h
        cases hc : skip r with
        | nil => rw [hc] at h; cases h
        | cons c r' =>
          have hne : r ≠ [] := by rintro rfl; cases hc
          rw [hc] at h
          rw [iv s _ hv (.inl hne)]
          simp only [skip_append hc q] at h ⊢
          split at h
          · rename_i e
            rw [if_pos e]
            exact map_append (g := fun l => v :: l) h (fun y hy => ii r' y hy)
          · rename_i e
            rw [if_neg e]
            split at h
            · rename_i e; rw [if_pos e]; cases h; rfl
            · cases h
    · intro s x h
      rw [members] at h ⊢
      cases hv : member fuel s with
      | none => rw [hv] at h; cases h
      | some y =>
        obtain ⟨v, r⟩ := y
        rw [hv] at h
        simp only at h
        cases hc : skip r with
        | nil => rw [hc] at h; cases h
        | cons c r' =>
          have hne : r ≠ [] := by rintro rfl; cases hc
          rw [hc] at h
          rw [ik s _ hv hne]
          simp only [skip_append hc q] at h ⊢
          split at h
          · rename_i e
            rw [if_pos e]
            exact map_append (g := fun l => v :: l) h (fun y hy => im r' y hy)
          · rename_i e
            rw [if_neg e]
            split at h
            · rename_i e; rw [if_pos e]; cases h; rfl
            · cases h
    · intro s x h hne
      rw [member] at h ⊢
      cases hc : skip s with
      | nil => rw [hc] at h; cases h
      | cons c r =>
        rw [hc] at h
        rw [skip_append hc q]
        simp only at h ⊢
        split at h
        · rename_i e
          rw [if_pos e]
          cases hk : string r with
          | none => rw [hk] at h; cases h
          | some y =>
            obtain ⟨k, r1⟩ := y
            rw [hk] at h
            rw [string_append r _ q hk]
            simp only at h ⊢
            cases hc' : skip r1 with
            | nil => rw [hc'] at h; cases h
            | cons c' r2 =>
              rw [hc'] at h
              rw [skip_append hc' q]
              simp only at h ⊢
              split at h
              · rename_i e
                rw [if_pos e]
                exact map_append (g := fun v => (k, v)) h (fun y hy => iv r2 y hy (.inl (by
                  rw [hy] at h
                  cases h
                  exact hne)))
              · cases h
        · cases h

end Kasa.JsonText
