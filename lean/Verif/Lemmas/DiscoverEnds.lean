import Verif.Lemmas.DiscoverRuns
/-!
# Searches end
-/

namespace Kasa.DiscoverTasks
open Discover

section
variable (d : Deps) (o : Options) (packets : Int)

/-- What is left of the search. -/
def searchRank (packets : Int) : Search → Nat
  | .none => packets.toNat + 3
  | .created => packets.toNat + 2
  | .sleeping left => left + 1
  | _ => 0

/-- A callback that is waited for. -/
def waited (hosts : List String) (c : String × Option (Except Exc Unit)) : Bool := decide (c.1 ∈ hosts) && c.2.isNone

/-- What is left of the present stage. -/
def inner (s : Sys) : Nat :=
  match s.main with
  | .gathering hosts none => (s.callbacks.filter (waited hosts)).length + 1
  | .closing _ _ _ left _ => left.length
  | _ => 0

def rank (s : Sys) : Nat × Nat × Nat := (s.main.stage, searchRank packets s.search, inner s)

def Less (a b : Nat × Nat × Nat) : Prop :=
  a.1 < b.1 ∨ a.1 = b.1 ∧ (a.2.1 < b.2.1 ∨ a.2.1 = b.2.1 ∧ a.2.2 < b.2.2)

theorem less_wf : WellFounded Less := by
  have : WellFounded (Prod.Lex (· < · : Nat → Nat → Prop) (Prod.Lex (· < · : Nat → Nat → Prop) (· < · : Nat → Nat → Prop))) :=
    (Prod.lex ⟨_, Nat.lt_wfRel.wf⟩ (Prod.lex ⟨_, Nat.lt_wfRel.wf⟩ ⟨_, Nat.lt_wfRel.wf⟩)).wf
  refine Subrelation.wf ?_ this
  rintro ⟨a, b, c⟩ ⟨a', b', c'⟩ (h | ⟨h, h' | ⟨h', h''⟩⟩)
  · exact Prod.Lex.left _ _ h
  · dsimp only at h; subst h; exact Prod.Lex.right _ (Prod.Lex.left _ _ h')
  · dsimp only at h h'; subst h; subst h'; exact Prod.Lex.right _ (Prod.Lex.right _ h'')

/-- Who has to do something next. -/
inductive Kind where
  | main
  | search
  | callback (host : String)
  | close
  | other

def Ev.kind : Ev → Kind
  | .mainRuns => .main
  | .searchRuns => .search
  | .callbackEnds host _ => .callback host
  | .closeEnds _ => .close
  | _ => .other

def helpful (s : Sys) : Kind :=
  match s.main with
  | .starting => .main
  | .searching => if s.search.ended then .main else .search
  | .gathering hosts none =>
    match s.callbacks.find? (waited hosts) with
    | some c => .callback c.1
    | none => .main
  | .gathering _ (some _) => .main
  | .closing _ _ _ _ _ => .close
  | _ => .other

/-! ## Callbacks that end -/

theorem find_map (hosts : List String) (host : String) (r : Except Exc Unit) (h : host ∉ hosts) (cs : List (String × Option (Except Exc Unit))) :
    (cs.map fun c => if c = (host, none) then (host, some r) else c).find? (waited hosts) = cs.find? (waited hosts) ∧
    ((cs.map fun c => if c = (host, none) then (host, some r) else c).filter (waited hosts)).length = (cs.filter (waited hosts)).length := by
  induction cs with
  | nil => exact ⟨rfl, rfl⟩
  | cons c cs ih =>
    rw [List.map_cons]
    by_cases hc : c = (host, none)
    · subst hc
      have h1 : waited hosts (host, some r) = false := by simp [waited, h]
      have h2 : waited hosts (host, none) = false := by simp [waited, h]
      rw [if_pos rfl, List.find?_cons, List.find?_cons, h1, h2, List.filter_cons_of_neg (by simp [h1]), List.filter_cons_of_neg (by simp [h2])]
      exact ih
    · rw [if_neg hc, List.find?_cons, List.find?_cons]
      cases hw : waited hosts c with
      | true =>
        rw [List.filter_cons_of_pos hw, List.filter_cons_of_pos hw]
        exact ⟨rfl, by simp [ih.2]⟩
      | false =>
        rw [List.filter_cons_of_neg (by simp [hw]), List.filter_cons_of_neg (by simp [hw])]
        exact ih

theorem filter_map (hosts : List String) (host : String) (r : Except Exc Unit) (cs : List (String × Option (Except Exc Unit))) :
    ((cs.map fun c => if c = (host, none) then (host, some r) else c).filter (waited hosts)).length ≤ (cs.filter (waited hosts)).length ∧
    ((host, none) ∈ cs → host ∈ hosts →
      ((cs.map fun c => if c = (host, none) then (host, some r) else c).filter (waited hosts)).length < (cs.filter (waited hosts)).length) := by
  induction cs with
  | nil => exact ⟨Nat.le_refl _, fun h => nomatch h⟩
  | cons c cs ih =>
    rw [List.map_cons]
    by_cases hc : c = (host, none)
    · subst hc
      have h1 : waited hosts (host, some r) = false := by simp [waited]
      rw [if_pos rfl, List.filter_cons_of_neg (by simp [h1])]
      cases hw : waited hosts (host, none) with
      | true =>
        rw [List.filter_cons_of_pos hw, List.length_cons]
        exact ⟨by omega, fun _ _ => by omega⟩
      | false =>
        rw [List.filter_cons_of_neg (by simp [hw])]
        exact ⟨ih.1, fun _ hh => by simp [waited, hh] at hw⟩
    · rw [if_neg hc]
      have hm : (host, none) ∈ c :: cs → (host, none) ∈ cs := fun h => by
        rcases List.mem_cons.1 h with h | h
        · exact absurd h.symm hc
        · exact h
      cases hw : waited hosts c with
      | true =>
        rw [List.filter_cons_of_pos hw, List.filter_cons_of_pos hw, List.length_cons, List.length_cons]
        exact ⟨by omega, fun h1 h2 => by have := ih.2 (hm h1) h2; omega⟩
      | false =>
        rw [List.filter_cons_of_neg (by simp [hw]), List.filter_cons_of_neg (by simp [hw])]
        exact ⟨ih.1, fun h1 h2 => ih.2 (hm h1) h2⟩

theorem allOver_iff (s : Sys) (hosts : List String) : allOver s hosts = true ↔ s.callbacks.find? (waited hosts) = none := by
  unfold allOver
  rw [List.find?_eq_none, List.all_eq_true]
  constructor
  · intro h c hc hw
    have := h c hc
    unfold waited at hw
    cases hx : c.2 <;> simp_all
  · intro h c hc
    have := h c hc
    unfold waited at this
    cases hx : c.2 <;> simp_all

/-! ## Progress -/

theorem failing_stage {m : Main} (h : m.failing = true) : m.stage ≤ 1 := by
  cases m <;> first | exact Nat.le_refl _ | exact Nat.zero_le _ | cases h

theorem searched_stage (s : Sys) : (searched s).main.stage ≤ 2 := by
  obtain h : ∀ s, (gather s).main.stage ≤ 2 := by
    intro s; unfold gather; split
    · exact Nat.zero_le _
    · exact Nat.le_refl _
  have h' : ∀ s e, (fail s e).main.stage ≤ 2 := by
    intro s e
    obtain ⟨m, h1, h2⟩ := fail_eq s e
    rw [h1]
    exact Nat.le_succ_of_le (failing_stage h2)
  unfold searched
  split
  · split
    · exact h _
    · exact h' _ _
  · split
    · exact h' _ _
    · exact h _

theorem searchRuns_less (s : Sys) (h : s.search.active = true) :
    searchRank packets (searchRuns o packets s).search < searchRank packets s.search := by
  have rnd : ∀ s' n, searchRank packets (round o s' n).search ≤ n := by
    intro s' n
    obtain ⟨t, k, h1, -, h2⟩ := round_eq o s' n
    rw [h1]
    rcases h2 with ⟨rfl, rfl, -⟩ | ⟨l, rfl, -, rfl, -⟩ | ⟨l, rfl, -, rfl, -⟩
    · exact Nat.zero_le _
    · exact Nat.zero_le _
    · exact Nat.le_refl _
  unfold searchRuns
  split
  · rename_i hs
    rw [hs]
    split
    · exact Nat.succ_pos _
    · split
      · exact Nat.succ_pos _
      · exact Nat.lt_of_le_of_lt (rnd s packets.toNat) (Nat.lt_succ_of_lt (Nat.lt_succ_self _))
  · rename_i left hs
    rw [hs]
    split
    · exact Nat.succ_pos _
    · exact Nat.lt_succ_of_le (rnd { s with slept := s.slept + 1 } left)
  · rename_i h1 h2
    cases hs : s.search with
    | created => exact absurd hs h1
    | sleeping l => exact absurd hs (h2 l)
    | none => rw [hs] at h; cases h
    | over => rw [hs] at h; cases h
    | cancelled => rw [hs] at h; cases h
    | raised _ => rw [hs] at h; cases h

theorem searchRuns_idle (s : Sys) (h : s.search.active = false) : searchRuns o packets s = s := by
  unfold searchRuns
  split
  · rename_i hs; rw [hs] at h; cases h
  · rename_i hs; rw [hs] at h; cases h
  · rfl

/-- Nothing ever goes back. -/
theorem forward (s : Sys) (ev : Ev) (hi : Inv o s) (hn : s.search ≠ .none) (he : s.main.ended = false) :
    Less (rank packets (step d o packets s ev)) (rank packets s) ∨
      rank packets (step d o packets s ev) = rank packets s ∧ helpful (step d o packets s ev) = helpful s := by
  by_cases hev : ev.main = true
  · obtain ⟨m, mc, c, h1, h2⟩ := moved d o packets s ev hev
    rw [h1]
    cases h2 with
    | same _ _ => exact Or.inr ⟨rfl, rfl⟩
    | fails _ _ _ hf hs => exact Or.inl (Or.inl (by have := failing_stage hf; show m.stage < s.main.stage; omega))
    | closes _ _ hf hs hl =>
      left
      cases hm : s.main with
      | closing e c ip l n =>
        cases m with
        | closing e' c' ip' l' n' =>
          refine Or.inr ⟨by show 1 = s.main.stage; rw [hm]; rfl, Or.inr ⟨rfl, ?_⟩⟩
          have := hl _ _ _ _ _ hm _ _ _ _ _ rfl
          show l'.length < inner s
          unfold inner
          rw [hm]
          exact this
        | raised e c => exact Or.inl (by show 0 < s.main.stage; rw [hm]; exact Nat.one_pos)
        | starting => cases hf
        | searching => cases hf
        | gathering _ _ => cases hf
        | returned _ => cases hf
      | starting => rw [hm] at hs; cases hs
      | searching => rw [hm] at hs; cases hs
      | gathering _ _ => rw [hm] at hs; cases hs
      | returned _ => rw [hm] at hs; cases hs
      | raised _ _ => rw [hm] at hs; cases hs
    | waits hm => exact Or.inl (Or.inl (by show 3 < s.main.stage; rw [hm]; decide))
    | gathers hm => exact Or.inl (Or.inl (by show 2 < s.main.stage; rcases hm with hm | hm <;> rw [hm] <;> decide))
    | empty hm => exact Or.inl (Or.inl (by show 0 < s.main.stage; rcases hm with hm | hm <;> rw [hm] <;> decide))
    | gathered hosts hm => exact Or.inl (Or.inl (by show 0 < s.main.stage; rw [hm]; exact Nat.succ_pos _))
    | cancels hm => exact Or.inr ⟨rfl, rfl⟩
    | cancelsGather hosts hm => exact Or.inr ⟨rfl, rfl⟩
    | cancelled hosts f hm =>
      cases f with
      | none =>
        refine Or.inl (Or.inr ⟨by show 2 = s.main.stage; rw [hm]; rfl, Or.inr ⟨rfl, ?_⟩⟩)
        show 0 < inner s
        unfold inner
        rw [hm]
        exact Nat.succ_pos _
      | some e =>
        right
        refine ⟨?_, ?_⟩
        · unfold rank inner; rw [hm]; rfl
        · unfold helpful; rw [hm]
    | lost => exact Or.inr ⟨rfl, rfl⟩
  · cases ev with
    | connected =>
      simp only [step, connected]
      rw [if_neg (fun h => hn h.1)]
      exact Or.inr ⟨rfl, rfl⟩
    | searchRuns =>
      simp only [step]
      cases ha : s.search.active with
      | false => rw [searchRuns_idle o packets s ha]; exact Or.inr ⟨rfl, rfl⟩
      | true =>
        left
        have hl := searchRuns_less o packets s ha
        obtain ⟨t, k, j, h1, -⟩ := searchRuns_eq o packets s
        rw [h1] at hl ⊢
        exact Or.inr ⟨rfl, Or.inl hl⟩
    | datagram dg =>
      right
      simp only [step, datagram]
      rw [if_neg (by simp [he])]
      split
      · rename_i hlt
        have hip : dg.ip ∉ s.st.seen := by
          rcases received_effect d o { s.st with cancelled := false } dg with hx | hx
          · rw [hx] at hlt; exact absurd hlt (Nat.lt_irrefl _)
          · exact hx.fresh
        cases hm : s.main with
        | gathering hosts f =>
          cases f with
          | none =>
            have hw : waited hosts (dg.ip, none) = false := by
              have : dg.ip ∉ hosts := fun hx => hip (hi.gathered _ _ hm _ hx)
              simp [waited, this]
            refine ⟨?_, ?_⟩
            · unfold rank inner
              rw [hm]
              dsimp only
              rw [List.filter_append, List.filter_cons_of_neg (by simp [hw]), List.filter_nil, List.append_nil]
            · unfold helpful
              rw [hm]
              dsimp only
              rw [List.find?_append, List.find?_cons, hw]
              simp
          | some e => refine ⟨?_, ?_⟩ <;> simp only [rank, inner, helpful, hm]
        | starting => refine ⟨?_, ?_⟩ <;> simp only [rank, inner, helpful, hm]
        | searching => refine ⟨?_, ?_⟩ <;> simp only [rank, inner, helpful, hm]
        | closing _ _ _ _ _ => refine ⟨?_, ?_⟩ <;> simp only [rank, inner, helpful, hm]
        | returned _ => refine ⟨?_, ?_⟩ <;> simp only [rank, inner, helpful, hm]
        | raised _ _ => refine ⟨?_, ?_⟩ <;> simp only [rank, inner, helpful, hm]
      · exact ⟨rfl, rfl⟩
    | callbackEnds host r =>
      simp only [step]
      by_cases hc : (host, none) ∈ s.callbacks
      · have hcb : (callbackEnds s host r).callbacks = s.callbacks.map fun c => if c = (host, none) then (host, some r) else c := by
          unfold callbackEnds; rw [if_pos hc]
        have hse : (callbackEnds s host r).search = s.search := by
          unfold callbackEnds; rw [if_pos hc]
        rcases callbackEnds_main s host r with hm | ⟨hosts, e, h1, h2, rfl, h3⟩
        · cases hm' : s.main with
          | gathering hosts f =>
            cases f with
            | none =>
              by_cases hh : host ∈ hosts
              · left
                refine Or.inr ⟨by unfold rank; rw [hm], Or.inr ⟨by unfold rank; rw [hse], ?_⟩⟩
                show inner (callbackEnds s host r) < inner s
                unfold inner
                rw [hm, hm', hcb]
                exact Nat.succ_lt_succ ((filter_map hosts host r s.callbacks).2 hc hh)
              · right
                have hf := find_map hosts host r hh s.callbacks
                refine ⟨?_, ?_⟩
                · unfold rank inner
                  rw [hm, hse, hm', hcb]
                  dsimp only
                  rw [hf.2]
                · unfold helpful
                  rw [hm, hm', hcb]
                  dsimp only
                  rw [hf.1]
            | some e => right; refine ⟨?_, ?_⟩ <;> simp only [rank, inner, helpful, hm, hm', hse]
          | starting => right; refine ⟨?_, ?_⟩ <;> simp only [rank, inner, helpful, hm, hm', hse]
          | searching => right; refine ⟨?_, ?_⟩ <;> simp only [rank, inner, helpful, hm, hm', hse]
          | closing _ _ _ _ _ => right; refine ⟨?_, ?_⟩ <;> simp only [rank, inner, helpful, hm, hm', hse]
          | returned _ => right; refine ⟨?_, ?_⟩ <;> simp only [rank, inner, helpful, hm, hm', hse]
          | raised _ _ => right; refine ⟨?_, ?_⟩ <;> simp only [rank, inner, helpful, hm, hm', hse]
        · left
          refine Or.inr ⟨by unfold rank; rw [h3, h1]; rfl, Or.inr ⟨by unfold rank; rw [hse], ?_⟩⟩
          show inner (callbackEnds s host (.error e)) < inner s
          unfold inner
          rw [h3, h1]
          exact Nat.succ_pos _
      · have : callbackEnds s host r = s := by unfold callbackEnds; rw [if_neg hc]
        rw [this]; exact Or.inr ⟨rfl, rfl⟩
    | startTimeout => exact absurd rfl hev
    | mainRuns => exact absurd rfl hev
    | closeEnds _ => exact absurd rfl hev
    | cancelCaller => exact absurd rfl hev
    | lost => exact absurd rfl hev

/-- Whoever has to do something next makes progress by doing it. -/
theorem progress (s : Sys) (ev : Ev) (hi : Inv o s) (hn : s.search ≠ .none) (he : s.main.ended = false) (hk : ev.kind = helpful s) :
    Less (rank packets (step d o packets s ev)) (rank packets s) := by
  have isMain : ev.kind = .main → ev = .mainRuns := by cases ev <;> intro h <;> first | rfl | cases h
  have low : ∀ k, s.main.stage = k → (mainRuns s).main.stage < k → ev = .mainRuns →
      Less (rank packets (step d o packets s ev)) (rank packets s) := by
    rintro k rfl h rfl
    exact Or.inl h
  cases hm : s.main with
  | starting =>
    unfold helpful at hk
    rw [hm] at hk
    refine low 4 (by rw [hm]; rfl) ?_ (isMain hk)
    unfold mainRuns
    rw [hm]
    dsimp only
    rw [if_neg hn]
    split
    · exact Nat.lt_of_le_of_lt (searched_stage s) (by decide)
    · exact Nat.lt_succ_self 3
  | searching =>
    unfold helpful at hk
    rw [hm] at hk
    dsimp only at hk
    split at hk
    · rename_i hs
      refine low 3 (by rw [hm]; rfl) ?_ (isMain hk)
      unfold mainRuns
      rw [hm]
      dsimp only
      rw [if_pos hs]
      exact Nat.lt_of_le_of_lt (searched_stage s) (by decide)
    · rename_i hs
      have hev : ev = .searchRuns := by cases ev <;> first | rfl | cases hk
      subst hev
      have ha : s.search.active = true := by
        cases hx : s.search <;> rw [hx] at hs hn <;> first | rfl | exact absurd rfl hs | exact absurd rfl hn
      have hl := searchRuns_less o packets s ha
      obtain ⟨t, k, j, h1, -⟩ := searchRuns_eq o packets s
      simp only [step]
      rw [h1] at hl ⊢
      exact Or.inr ⟨rfl, Or.inl hl⟩
  | gathering hosts f =>
    have failLow : ∀ s e, (fail s e).main.stage < 2 := by
      intro s e
      obtain ⟨m, h1, h2⟩ := fail_eq s e
      rw [h1]
      exact Nat.lt_succ_of_le (failing_stage h2)
    cases f with
    | some e =>
      unfold helpful at hk
      rw [hm] at hk
      refine low 2 (by rw [hm]; rfl) ?_ (isMain hk)
      unfold mainRuns
      rw [hm]
      exact failLow _ _
    | none =>
      unfold helpful at hk
      rw [hm] at hk
      dsimp only at hk
      split at hk
      · rename_i c hf
        have hc := List.mem_of_find?_eq_some hf
        have hw := List.find?_some hf
        obtain ⟨host, x⟩ := c
        simp only [waited, Bool.and_eq_true, decide_eq_true_eq, Option.isNone_iff_eq_none] at hw
        obtain ⟨hw, rfl⟩ := hw
        have hev : ∃ r, ev = .callbackEnds host r := by
          cases ev <;> first | (cases hk; exact ⟨_, rfl⟩) | cases hk
        obtain ⟨r, rfl⟩ := hev
        simp only [step]
        have hcb : (callbackEnds s host r).callbacks = s.callbacks.map fun c => if c = (host, none) then (host, some r) else c := by
          unfold callbackEnds; rw [if_pos hc]
        have hse : (callbackEnds s host r).search = s.search := by
          unfold callbackEnds; rw [if_pos hc]
        have hst : (callbackEnds s host r).main.stage = s.main.stage := by
          rcases callbackEnds_main s host r with h1 | ⟨_, _, h1, -, -, h3⟩
          · rw [h1]
          · rw [h3, h1]; rfl
        refine Or.inr ⟨hst, Or.inr ⟨by unfold rank; rw [hse], ?_⟩⟩
        show inner (callbackEnds s host r) < inner s
        rcases callbackEnds_main s host r with h1 | ⟨_, _, h1, -, -, h3⟩
        · unfold inner
          rw [h1, hm, hcb]
          exact Nat.succ_lt_succ ((filter_map hosts host r s.callbacks).2 hc hw)
        · unfold inner
          rw [h3, h1]
          exact Nat.succ_pos _
      · rename_i hf
        refine low 2 (by rw [hm]; rfl) ?_ (isMain hk)
        unfold mainRuns
        rw [hm]
        dsimp only
        rw [if_pos ((allOver_iff s hosts).2 hf)]
        split
        · exact failLow _ _
        · exact Nat.succ_pos _
  | closing e c ip l n =>
    unfold helpful at hk
    rw [hm] at hk
    have hev : ∃ r, ev = .closeEnds r := by
      cases ev <;> first | exact ⟨_, rfl⟩ | cases hk
    obtain ⟨r, rfl⟩ := hev
    simp only [step, closeEnds]
    rw [hm]
    cases r with
    | error e' => exact Or.inl (by show 0 < s.main.stage; rw [hm]; exact Nat.one_pos)
    | ok u =>
      dsimp only
      obtain ⟨m, h1, h2⟩ := closeNext_eq s e (c ++ [ip]) l n
      have hl := closeNext_less s e (c ++ [ip]) l n m h1
      rw [h1]
      cases m with
      | closing e' c' ip' l' n' =>
        refine Or.inr ⟨by show 1 = s.main.stage; rw [hm]; rfl, Or.inr ⟨rfl, ?_⟩⟩
        show l'.length < inner s
        unfold inner
        rw [hm]
        exact hl _ _ _ _ _ rfl
      | raised e c => exact Or.inl (by show 0 < s.main.stage; rw [hm]; exact Nat.one_pos)
      | starting => cases h2
      | searching => cases h2
      | gathering _ _ => cases h2
      | returned _ => cases h2
  | returned _ => rw [hm] at he; cases he
  | raised _ _ => rw [hm] at he; cases he

/-! ## Fair schedules -/

theorem search_some (s : Sys) (ev : Ev) (h : s.search ≠ .none) : (step d o packets s ev).search ≠ .none := by
  by_cases hev : ev.main = true
  · obtain ⟨m, mc, c, h1, -⟩ := moved d o packets s ev hev
    rw [h1]; exact h
  · cases ev with
    | connected => simp only [step, connected]; split <;> first | exact h | simp
    | searchRuns =>
      obtain ⟨t, k, j, h1, h2⟩ := searchRuns_eq o packets s
      simp only [step]; rw [h1]; exact h2 h
    | datagram dg => simp only [step, datagram]; split <;> exact h
    | callbackEnds host r => simp only [step, callbackEnds]; split <;> exact h
    | startTimeout => exact absurd rfl hev
    | mainRuns => exact absurd rfl hev
    | closeEnds _ => exact absurd rfl hev
    | cancelCaller => exact absurd rfl hev
    | lost => exact absurd rfl hev

theorem inv_at (evs : Nat → Ev) (n : Nat) : Inv o (stateAt d o packets evs n) := by
  induction n with
  | zero => exact inv_init o
  | succ n ih => exact inv_step d o packets ih _

theorem some_at (evs : Nat → Ev) (n k : Nat) (h : (stateAt d o packets evs n).search ≠ .none) :
    (stateAt d o packets evs (n + k)).search ≠ .none := by
  induction k with
  | zero => exact h
  | succ k ih => exact search_some d o packets _ _ ih

theorem ends_from (evs : Nat → Ev) (hf : Fair d o packets evs) (a : Nat × Nat × Nat) : ∀ n, rank packets (stateAt d o packets evs n) = a →
    (stateAt d o packets evs n).search ≠ .none → ∃ m, (stateAt d o packets evs m).main.ended = true := by
  induction a using less_wf.induction with
  | _ a ih =>
    intro n hr hn
    by_cases he : (stateAt d o packets evs n).main.ended = true
    · exact ⟨n, he⟩
    · have he : (stateAt d o packets evs n).main.ended = false := by simpa using he
      have hfair : ∃ m, n ≤ m ∧ (evs m).kind = helpful (stateAt d o packets evs n) := by
        cases hk : helpful (stateAt d o packets evs n) with
        | main => obtain ⟨m, h1, h2⟩ := hf.main n; exact ⟨m, h1, by rw [h2]; rfl⟩
        | search => obtain ⟨m, h1, h2⟩ := hf.search n; exact ⟨m, h1, by rw [h2]; rfl⟩
        | callback host =>
          have hc : (host, none) ∈ (stateAt d o packets evs n).callbacks := by
            unfold helpful at hk
            split at hk
            · cases hk
            · split at hk <;> cases hk
            · split at hk
              · rename_i c hfind
                cases hk
                have hmem := List.mem_of_find?_eq_some hfind
                have hw := List.find?_some hfind
                obtain ⟨host, x⟩ := c
                simp only [waited, Bool.and_eq_true, decide_eq_true_eq, Option.isNone_iff_eq_none] at hw
                obtain ⟨-, rfl⟩ := hw
                exact hmem
              · cases hk
            · cases hk
            · cases hk
            · cases hk
          obtain ⟨m, r, h1, h2⟩ := hf.callbacks host n hc; exact ⟨m, h1, by rw [h2]; rfl⟩
        | close =>
          have hc : ∃ e closed ip left size, (stateAt d o packets evs n).main = .closing e closed ip left size := by
            unfold helpful at hk
            split at hk
            · cases hk
            · split at hk <;> cases hk
            · split at hk <;> cases hk
            · cases hk
            · exact ⟨_, _, _, _, _, by assumption⟩
            · cases hk
          obtain ⟨e, closed, ip, left, size, hc⟩ := hc
          obtain ⟨m, r, h1, h2⟩ := hf.closes n _ _ _ _ _ hc; exact ⟨m, h1, by rw [h2]; rfl⟩
        | other =>
          unfold helpful at hk
          split at hk
          · cases hk
          · split at hk <;> cases hk
          · split at hk <;> cases hk
          · cases hk
          · cases hk
          · rename_i h1 h2 h3 h4 h5
            cases hm : (stateAt d o packets evs n).main with
            | starting => exact absurd hm h1
            | searching => exact absurd hm h2
            | gathering hosts f =>
              cases f with
              | none => exact absurd hm (h3 _)
              | some e => exact absurd hm (h4 _ _)
            | closing _ _ _ _ _ => exact absurd hm (h5 _ _ _ _ _)
            | returned _ => rw [hm] at he; cases he
            | raised _ _ => rw [hm] at he; cases he
      obtain ⟨m, hnm, hkind⟩ := hfair
      -- up to then, either something happened or nothing changed
      have wait : ∀ k, (∃ j, Less (rank packets (stateAt d o packets evs j)) a ∧ (stateAt d o packets evs j).search ≠ .none) ∨
          rank packets (stateAt d o packets evs (n + k)) = a ∧ helpful (stateAt d o packets evs (n + k)) = helpful (stateAt d o packets evs n) ∧
            (stateAt d o packets evs (n + k)).main.ended = false := by
        intro k
        induction k with
        | zero => exact Or.inr ⟨hr, rfl, he⟩
        | succ k ih' =>
          rcases ih' with h | ⟨h1, h2, h3⟩
          · exact Or.inl h
          · rcases forward d o packets _ (evs (n + k)) (inv_at d o packets evs _) (some_at d o packets evs n k hn) h3 with h | ⟨h4, h5⟩
            · exact Or.inl ⟨n + k + 1, by rw [← h1]; exact h, some_at d o packets evs n (k + 1) hn⟩
            · refine Or.inr ⟨h4.trans h1, h5.trans h2, ?_⟩
              have hst : (stateAt d o packets evs (n + k + 1)).main.stage = (stateAt d o packets evs (n + k)).main.stage :=
                congrArg Prod.fst h4
              cases hx : (stateAt d o packets evs (n + (k + 1))).main.ended with
              | false => rfl
              | true =>
                have h6 := stage_ended hx
                rw [show n + (k + 1) = n + k + 1 from rfl, hst] at h6
                rw [ended_stage h6] at h3
                cases h3
      rcases wait (m - n) with ⟨j, h1, h2⟩ | ⟨h1, h2, h3⟩
      · exact ih _ h1 j rfl h2
      · rw [Nat.add_sub_cancel' hnm] at h1 h2 h3
        have hsm : (stateAt d o packets evs m).search ≠ .none := by
          have := some_at d o packets evs n (m - n) hn
          rwa [Nat.add_sub_cancel' hnm] at this
        have hp := progress d o packets _ (evs m) (inv_at d o packets evs m) hsm h3 (hkind.trans h2.symm)
        rw [h1] at hp
        exact ih _ hp (m + 1) rfl (search_some d o packets _ _ hsm)

theorem ends (evs : Nat → Ev) (hf : Fair d o packets evs) : ∃ n, (stateAt d o packets evs n).main.ended = true := by
  obtain ⟨n, hn⟩ := hf.ready
  by_cases he : (stateAt d o packets evs n).main.ended = true
  · exact ⟨n, he⟩
  · refine ends_from d o packets evs hf _ (n + 1) rfl ?_
    show (step d o packets (stateAt d o packets evs n) (evs n)).search ≠ .none
    rw [hn]
    simp only [step, connected]
    split
    · simp
    · rename_i h
      intro h'
      exact h ⟨h', he⟩

end
end Kasa.DiscoverTasks
