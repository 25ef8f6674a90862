import Verif.Model.JsonText
/-!
# The bound on the steps of the reader is no restriction
-/

namespace Kasa.JsonText

theorem dropWhile_le {p : Char → Bool} (s : List Char) : (s.dropWhile p).length ≤ s.length := by
  induction s with
  | nil => exact Nat.le_refl _
  | cons c s ih =>
    rw [List.dropWhile]
    split
    · exact Nat.le_succ_of_le ih
    · exact Nat.le_refl _

theorem skip_le (s : List Char) : (skip s).length ≤ s.length := dropWhile_le s

theorem push_some {n : Nat} {r : Option (List Nat × List Char)} {x : List Nat × List Char} (h : push n r = some x) :
    ∃ y, r = some y ∧ y.2 = x.2 := by
  cases r with
  | none => cases h
  | some y => exact ⟨y, rfl, by cases h; rfl⟩

theorem codes_le : ∀ (s : List Char) (a : At) (x : List Nat × List Char), codes a s = some x → x.2.length ≤ s.length
  | [], a, x, h => by cases a <;> cases h
  | c :: r, .text, x, h => by
    rw [codes] at h
    split at h
    · cases h; exact Nat.le_succ _
    · split at h
      · exact Nat.le_succ_of_le (codes_le r _ x h)
      · split at h
        · cases h
        · obtain ⟨y, hy, e⟩ := push_some h
          rw [← e]
          exact Nat.le_succ_of_le (codes_le r _ y hy)
  | c :: r, .escape, x, h => by
    rw [codes] at h
    split at h
    · exact Nat.le_succ_of_le (codes_le r _ x h)
    · split at h
      · obtain ⟨y, hy, e⟩ := push_some h
        rw [← e]
        exact Nat.le_succ_of_le (codes_le r _ y hy)
      · cases h
  | c :: r, .hex m acc, x, h => by
    rw [codes] at h
    split at h
    · split at h
      · obtain ⟨y, hy, e⟩ := push_some h
        rw [← e]
        exact Nat.le_succ_of_le (codes_le r _ y hy)
      · exact Nat.le_succ_of_le (codes_le r _ x h)
    · cases h

theorem string_le (s : List Char) (x : String × List Char) (h : string s = some x) : x.2.length ≤ s.length := by
  unfold string at h
  cases hc : codes .text s with
  | none => rw [hc] at h; cases h
  | some y =>
    rw [hc] at h
    have h' : ((join none y.1).bind fun cs => some (String.ofList cs, y.2)) = some x := h
    cases hj : join none y.1 with
    | none => rw [hj] at h'; cases h'
    | some cs =>
      rw [hj] at h'
      cases h'
      exact codes_le s _ y hc

theorem literal_le (w : List Char) (v : Json) (s : List Char) (x : Json × List Char) (h : literal w v s = some x) :
    x.2.length ≤ s.length := by
  unfold literal at h
  split at h
  · cases h
    simp only [List.length_drop]
    omega
  · cases h

theorem digits_le (s : List Char) (x : Nat × List Char) (h : digits s = some x) : x.2.length ≤ s.length := by
  unfold digits at h
  split at h
  · cases h
  · split at h
    · cases h; exact Nat.le_succ _
    · split at h
      · cases h
        exact dropWhile_le _
      · cases h

theorem number_le (s : List Char) (x : Json × List Char) (h : number s = some x) : x.2.length ≤ s.length := by
  cases s with
  | nil => cases h
  | cons c r =>
    unfold number at h
    simp only at h
    split at h
    · rename_i n rest hm
      split at h
      · cases h
      · cases h
        split at hm
        · cases hd : digits r with
          | none => rw [hd] at hm; cases hm
          | some y =>
            rw [hd] at hm
            cases hm
            exact Nat.le_succ_of_le (digits_le r y hd)
        · cases hd : digits (c :: r) with
          | none => rw [hd] at hm; cases hm
          | some y =>
            rw [hd] at hm
            cases hm
            exact digits_le _ y hd
    · cases h

theorem tail_le (s : List Char) : s.tail.length ≤ s.length := by
  rw [List.length_tail]
  omega

theorem map_le {α β : Type} {o : Option (α × List Char)} {g : α → β} {x : β × List Char} {n : Nat}
    (h : o.map (fun x => (g x.1, x.2)) = some x) (hn : ∀ y, o = some y → y.2.length ≤ n) : x.2.length ≤ n := by
  cases o with
  | none => cases h
  | some y => cases h; exact hn y rfl

/-- What is left of a text is no longer than the text. -/
theorem left_le : ∀ fuel : Nat,
    (∀ s x, value fuel s = some x → x.2.length ≤ s.length) ∧
    (∀ s x, items fuel s = some x → x.2.length ≤ s.length) ∧
    (∀ s x, members fuel s = some x → x.2.length ≤ s.length) ∧
    (∀ s x, member fuel s = some x → x.2.length ≤ s.length)
  | 0 => ⟨fun _ _ h => (by rw [value] at h; cases h), fun _ _ h => (by rw [items] at h; cases h),
      fun _ _ h => (by rw [members] at h; cases h), fun _ _ h => (by rw [member] at h; cases h)⟩
  | fuel + 1 => by
    obtain ⟨iv, ii, im, ik⟩ := left_le fuel
    refine ⟨?_, ?_, ?_, ?_⟩
    · intro s x h
      rw [value] at h
      have hs := skip_le s
      split at h
      · cases h
      · rename_i c r hc
        rw [hc, List.length_cons] at hs
        suffices x.2.length ≤ r.length + 1 by omega
        split at h
        · exact Nat.le_succ_of_le (map_le h (string_le r))
        · split at h
          · split at h
            · cases h; exact Nat.le_succ_of_le (Nat.le_trans (tail_le _) (skip_le r))
            · exact Nat.le_succ_of_le (map_le h (ii r))
          · split at h
            · split at h
              · cases h; exact Nat.le_succ_of_le (Nat.le_trans (tail_le _) (skip_le r))
              · exact Nat.le_succ_of_le (map_le (g := fun m => Json.obj (Dict.update [] m)) h (im r))
            · split at h
              · exact Nat.le_succ_of_le (literal_le _ _ _ _ h)
              · split at h
                · exact Nat.le_succ_of_le (literal_le _ _ _ _ h)
                · split at h
                  · exact Nat.le_succ_of_le (literal_le _ _ _ _ h)
                  · exact number_le _ x h
    · intro s x h
      rw [items] at h
      split at h
      · cases h
      · rename_i v r hv
        have h1 := iv s _ hv
        have h2 := skip_le r
        split at h
        · cases h
        · rename_i c r' hc
          rw [hc, List.length_cons] at h2
          simp only at h1
          have hr : r'.length ≤ s.length := by omega
          refine Nat.le_trans ?_ hr
          split at h
          · exact map_le (g := fun l => v :: l) h (ii r')
          · split at h
            · cases h; exact Nat.le_refl _
            · cases h
    · intro s x h
      rw [members] at h
      split at h
      · cases h
      · rename_i v r hv
        have h1 := ik s _ hv
        have h2 := skip_le r
        split at h
        · cases h
        · rename_i c r' hc
          rw [hc, List.length_cons] at h2
          simp only at h1
          have hr : r'.length ≤ s.length := by omega
          refine Nat.le_trans ?_ hr
          split at h
          · exact map_le (g := fun l => v :: l) h (im r')
          · split at h
            · cases h; exact Nat.le_refl _
            · cases h
    · intro s x h
      rw [member] at h
      have hs := skip_le s
      split at h
      · cases h
      · rename_i c r hc
        rw [hc, List.length_cons] at hs
        split at h
        · split at h
          · cases h
          · rename_i k r1 hk
            have h1 := string_le r _ hk
            have h2 := skip_le r1
            split at h
            · cases h
            · rename_i c' r2 hc'
              rw [hc', List.length_cons] at h2
              simp only at h1
              have hr : r2.length ≤ s.length := by omega
              refine Nat.le_trans ?_ hr
              split at h
              · exact map_le (g := fun v => (k, v)) h (iv r2)
              · cases h
        · cases h

/-- More steps than twice the length of the text make no difference. -/
theorem more_fuel : ∀ fuel : Nat,
    (∀ s : List Char, 2 * s.length + 1 ≤ fuel → value (fuel + 1) s = value fuel s) ∧
    (∀ s : List Char, 2 * s.length + 2 ≤ fuel → items (fuel + 1) s = items fuel s) ∧
    (∀ s : List Char, 2 * s.length + 2 ≤ fuel → members (fuel + 1) s = members fuel s) ∧
    (∀ s : List Char, 2 * s.length + 1 ≤ fuel → member (fuel + 1) s = member fuel s)
  | 0 => ⟨fun _ h => by omega, fun _ h => by omega, fun _ h => by omega, fun _ h => by omega⟩
  | fuel + 1 => by
    obtain ⟨iv, ii, im, ik⟩ := more_fuel fuel
    refine ⟨?_, ?_, ?_, ?_⟩
    · intro s h
      rw [value, value]
      have hs := skip_le s
      cases hc : skip s with
      | nil => rfl
      | cons c r =>
        rw [hc, List.length_cons] at hs
        simp only [ii r (by omega), im r (by omega)]
    · intro s h
      rw [items, items]
      rw [iv s (by omega)]
      cases hv : value fuel s with
      | none => rfl
      | some x =>
        obtain ⟨v, r⟩ := x
        have h1 : r.length ≤ s.length := (left_le fuel).1 s _ hv
        have h2 := skip_le r
        simp only
        cases hc : skip r with
        | nil => rfl
        | cons c r' =>
          rw [hc, List.length_cons] at h2
          simp only [ii r' (by omega)]
    · intro s h
      rw [members, members]
      rw [ik s (by omega)]
      cases hv : member fuel s with
      | none => rfl
      | some x =>
        obtain ⟨v, r⟩ := x
        have h1 : r.length ≤ s.length := (left_le fuel).2.2.2 s _ hv
        have h2 := skip_le r
        simp only
        cases hc : skip r with
        | nil => rfl
        | cons c r' =>
          rw [hc, List.length_cons] at h2
          simp only [im r' (by omega)]
    · intro s h
      rw [member, member]
      have hs := skip_le s
      cases hc : skip s with
      | nil => rfl
      | cons c r =>
        rw [hc, List.length_cons] at hs
        simp only
        split
        · cases hk : string r with
          | none => rfl
          | some x =>
            obtain ⟨k, r1⟩ := x
            have h1 : r1.length ≤ r.length := string_le r _ hk
            have h2 := skip_le r1
            simp only
            cases hc' : skip r1 with
            | nil => rfl
            | cons c' r2 =>
              rw [hc', List.length_cons] at h2
              simp only [iv r2 (by omega)]
        · rfl

theorem enough_fuel (s : List Char) (fuel : Nat) (h : 2 * s.length + 2 ≤ fuel) :
    value fuel s = value (2 * s.length + 2) s := by
  induction fuel with
  | zero => omega
  | succ f ih =>
    by_cases e : f + 1 = 2 * s.length + 2
    · rw [e]
    · rw [(more_fuel f).1 s (by omega), ih (by omega)]

end Kasa.JsonText
