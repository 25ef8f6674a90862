import Verif.Spec.CliSearch
/-!
# C81: the search for a device by its alias
-/

namespace Kasa.Cli

open Spec

/-- The state of a search after a history. -/
def after (lower : String → String) (alias : String) (steps : List Step) : Search :=
  steps.foldl (searchStep lower alias) Search.start

theorem after_concat (lower : String → String) (alias : String) (steps : List Step) (e : Step) :
    after lower alias (steps ++ [e]) = searchStep lower alias (after lower alias steps) e := by
  unfold after
  rw [List.foldl_append]
  rfl

/-- A search ends with a prefix of the history. -/
theorem search_prefix (lower : String → String) (alias : String) (done rest : List Step) (r : Option String)
    (h : search lower alias (after lower alias done) rest = some r) :
    ∃ used left, rest = used ++ left ∧ (after lower alias (done ++ used)).over = true ∧
      r = (after lower alias (done ++ used)).found.head? ∧
      (used = [] ∨ ∃ u e, used = u ++ [e] ∧ (after lower alias (done ++ u)).over = false) := by
  induction rest generalizing done with
  | nil =>
    unfold search at h
    split at h
    · cases h
      exact ⟨[], [], rfl, by simpa, by simp, .inl rfl⟩
    · cases h
  | cons e rest ih =>
    unfold search at h
    split at h
    · cases h
      exact ⟨[], e :: rest, rfl, by simpa, by simp, .inl rfl⟩
    · rename_i hn
      rw [← after_concat] at h
      obtain ⟨used, left, h1, h2, h3, h4⟩ := ih (done ++ [e]) h
      refine ⟨e :: used, left, by rw [h1]; rfl, by simpa using h2, by simpa using h3, .inr ?_⟩
      rcases h4 with h4 | ⟨u, e', h4, h5⟩
      · exact ⟨[], e, by rw [h4]; rfl, by simpa using hn⟩
      · exact ⟨e :: u, e', by rw [h4]; rfl, by simpa using h5⟩

@[elab_as_elim]
theorem snocRec {motive : List Step → Prop} (nil : motive [])
    (append_singleton : ∀ l e, motive l → motive (l ++ [e])) (l : List Step) : motive l := by
  have key : ∀ r : List Step, motive r.reverse := by
    intro r
    induction r with
    | nil => exact nil
    | cons e r ih =>
      rw [List.reverse_cons]
      exact append_singleton _ e ih
  rw [← List.reverse_reverse l]
  exact key _

theorem mem_erase_nodup {l : List String} (h : l.Nodup) {x y : String} : x ∈ l.erase y ↔ x ∈ l ∧ x ≠ y := by
  rw [h.mem_erase_iff]
  exact And.comm

theorem concat_split {α : Type} {l p q : List α} {e x : α} (h : l ++ [e] = p ++ x :: q) :
    (q = [] ∧ l = p ∧ e = x) ∨ ∃ q', q = q' ++ [e] ∧ l = p ++ x :: q' := by
  rcases List.eq_nil_or_concat q with hq | ⟨q', y, hq⟩
  · subst hq
    have h1 := List.append_inj' h rfl
    refine .inl ⟨rfl, h1.1, ?_⟩
    simpa using h1.2
  · subst hq
    have h2 : l ++ [e] = (p ++ x :: q') ++ [y] := by rw [h]; simp
    have h1 := List.append_inj' h2 rfl
    have h3 : e = y := by simpa using h1.2
    subst h3
    exact .inr ⟨q', by simp, h1.1⟩

theorem asking_concat (steps : List Step) (e : Step) (x : String) :
    Asking (steps ++ [e]) x ↔ (Asking steps x ∧ ∀ r, e ≠ .updated x r) ∨ (e = .arrives x ∧ .arrives x ∉ steps) := by
  constructor
  · rintro ⟨p, q, h, hp, hq⟩
    rcases concat_split h with ⟨rfl, rfl, rfl⟩ | ⟨q', rfl, rfl⟩
    · exact .inr ⟨rfl, hp⟩
    · refine .inl ⟨⟨p, q', rfl, hp, fun r hr => hq r (by simp [hr])⟩, fun r hr => hq r (by simp [hr])⟩
  · rintro (⟨⟨p, q, rfl, hp, hq⟩, he⟩ | ⟨rfl, hn⟩)
    · refine ⟨p, q ++ [e], by simp, hp, fun r hr => ?_⟩
      rcases List.mem_append.1 hr with hr | hr
      · exact hq r hr
      · exact he r (List.mem_singleton.1 hr).symm
    · exact ⟨steps, [], rfl, hn, fun r hr => by simp at hr⟩

theorem shows_concat (steps : List Step) (e : Step) (x a : String) :
    Shows (steps ++ [e]) x a ↔ Shows steps x a ∨ (e = .updated x (.ok (some a)) ∧ Asking steps x) := by
  constructor
  · rintro ⟨p, q, h, hp⟩
    rcases concat_split h with ⟨rfl, rfl, rfl⟩ | ⟨q', rfl, rfl⟩
    · exact .inr ⟨rfl, hp⟩
    · exact .inl ⟨p, q', rfl, hp⟩
  · rintro (⟨p, q, rfl, hp⟩ | ⟨rfl, hp⟩)
    · exact ⟨p, q ++ [e], by simp, hp⟩
    · exact ⟨steps, [], rfl, hp⟩

/-- What a history makes of the search. -/
structure Inv (lower : String → String) (alias : String) (steps : List Step) (s : Search) : Prop where
  asked : s.asked = s.seen
  nodup : s.seen.Nodup
  asking_nodup : s.asking.Nodup
  seen : ∀ x, x ∈ s.seen ↔ .arrives x ∈ steps
  asking : ∀ x, x ∈ s.asking ↔ Asking steps x
  found : ∀ x, x ∈ s.found ↔ ∃ a, Shows steps x a ∧ SameName lower a alias
  over : s.over = true → s.found ≠ [] ∨ 2 ≤ roundsEnded steps
  found_over : s.found ≠ [] → s.over = true
  rounds : 1 ≤ s.rounds → s.rounds + roundsEnded steps = 2
  ends : .roundFails ∉ steps → 2 ≤ roundsEnded steps → s.over = true
  left : .roundFails ∉ steps → s.rounds = 2 - roundsEnded steps

theorem roundsEnded_concat (steps : List Step) (e : Step) :
    roundsEnded (steps ++ [e]) = roundsEnded steps + roundsEnded [e] := by
  induction steps with
  | nil => simp [roundsEnded]
  | cons x rest ih =>
    cases x <;> simp only [List.cons_append, roundsEnded, ih] <;> omega

theorem asking_arrives {steps : List Step} {x : String} (h : Asking steps x) : .arrives x ∈ steps := by
  obtain ⟨p, q, rfl, _⟩ := h
  simp

theorem inv (lower : String → String) (alias : String) (steps : List Step) :
    Inv lower alias steps (after lower alias steps) := by
  induction steps using snocRec with
  | nil =>
    refine ⟨rfl, List.nodup_nil, List.nodup_nil, fun x => by simp [after, Search.start], fun x => ?_, fun x => ?_, ?_, ?_, ?_,
      ?_, ?_⟩
    · simp only [after, List.foldl_nil, Search.start, List.not_mem_nil, false_iff]
      rintro ⟨p, q, h, _⟩
      simp at h
    · simp only [after, List.foldl_nil, Search.start, List.not_mem_nil, false_iff]
      rintro ⟨a, ⟨p, q, h, _⟩, _⟩
      simp at h
    · simp [after, Search.start]
    · simp [after, Search.start]
    · simp [after, Search.start, roundsEnded]
    · simp [roundsEnded]
    · simp [after, Search.start, roundsEnded]
  | append_singleton steps e ih =>
    rw [after_concat]
    generalize after lower alias steps = s at ih
    have hre := roundsEnded_concat steps e
    cases e with
    | arrives h =>
      have hre' : roundsEnded (steps ++ [.arrives h]) = roundsEnded steps := by rw [hre]; simp [roundsEnded]
      have hsh : ∀ x a, Shows (steps ++ [.arrives h]) x a ↔ Shows steps x a := by
        intro x a
        rw [shows_concat]
        simp
      have hf : (Step.roundFails ∉ steps ++ [.arrives h]) ↔ .roundFails ∉ steps := by simp
      simp only [searchStep]
      by_cases hs : h ∈ s.seen
      · rw [if_pos hs]
        refine ⟨ih.asked, ih.nodup, ih.asking_nodup, ?_, ?_, ?_, ?_, ih.found_over, ?_, ?_, ?_⟩
        · intro x
          rw [ih.seen]
          simp only [List.mem_append, List.mem_singleton, Step.arrives.injEq]
          constructor
          · exact .inl
          · rintro (h' | rfl)
            · exact h'
            · exact (ih.seen _).1 hs
        · intro x
          rw [ih.asking, asking_concat]
          simp only [Step.arrives.injEq]
          constructor
          · intro h'
            exact .inl ⟨h', fun r hr => by cases hr⟩
          · rintro (h' | ⟨rfl, h'⟩)
            · exact h'.1
            · exact absurd ((ih.seen _).1 hs) h'
        · intro x
          rw [ih.found]
          simp only [hsh]
        · rw [hre']; exact ih.over
        · rw [hre']; exact ih.rounds
        · rw [hre', hf]; exact ih.ends
        · rw [hre', hf]; exact ih.left
      · rw [if_neg hs]
        have hna : .arrives h ∉ steps := fun h' => hs ((ih.seen _).2 h')
        refine ⟨by simp only [ih.asked], ?_, ?_, ?_, ?_, ?_, ?_, ih.found_over, ?_, ?_, ?_⟩
        · exact List.nodup_cons.2 ⟨hs, ih.nodup⟩
        · refine List.nodup_cons.2 ⟨fun h' => hna (asking_arrives ((ih.asking _).1 h')), ih.asking_nodup⟩
        · intro x
          simp only [List.mem_cons, ih.seen, List.mem_append, List.mem_singleton, Step.arrives.injEq, List.not_mem_nil, or_false]
          constructor
          · rintro (h' | h')
            · exact .inr h'
            · exact .inl h'
          · rintro (h' | h')
            · exact .inr h'
            · exact .inl h'
        · intro x
          simp only [List.mem_cons, ih.asking, asking_concat, Step.arrives.injEq]
          constructor
          · rintro (rfl | h')
            · exact .inr ⟨rfl, hna⟩
            · exact .inl ⟨h', fun r hr => by cases hr⟩
          · rintro (h' | ⟨rfl, _⟩)
            · exact .inr h'.1
            · exact .inl rfl
        · intro x
          simp only [ih.found, hsh]
        · rw [hre']; exact ih.over
        · rw [hre']; exact ih.rounds
        · rw [hre', hf]; exact ih.ends
        · rw [hre', hf]; exact ih.left
    | updated h r =>
      have hre' : roundsEnded (steps ++ [.updated h r]) = roundsEnded steps := by rw [hre]; simp [roundsEnded]
      have hf : (Step.roundFails ∉ steps ++ [.updated h r]) ↔ .roundFails ∉ steps := by simp
      have hseen : ∀ x, x ∈ s.seen ↔ .arrives x ∈ steps ++ [.updated h r] := by
        intro x
        rw [ih.seen]
        simp
      have hask : ∀ x, Asking (steps ++ [.updated h r]) x ↔ Asking steps x ∧ x ≠ h := by
        intro x
        rw [asking_concat]
        constructor
        · rintro (⟨h1, h2⟩ | ⟨h1, _⟩)
          · refine ⟨h1, fun e => ?_⟩
            subst e
            exact h2 r rfl
          · cases h1
        · rintro ⟨h1, h2⟩
          refine .inl ⟨h1, fun r' e => h2 ?_⟩
          cases e
          rfl
      have base : s.over = true → s.found ≠ [] ∨ 2 ≤ roundsEnded (steps ++ [.updated h r]) := by
        rw [hre']; exact ih.over
      simp only [searchStep]
      by_cases hs : h ∈ s.asking
      · rw [if_pos hs]
        have hah := (ih.asking _).1 hs
        have hask' : ∀ x, x ∈ s.asking.erase h ↔ Asking (steps ++ [.updated h r]) x := by
          intro x
          rw [mem_erase_nodup ih.asking_nodup, hask, ih.asking]
        have hnd : (s.asking.erase h).Nodup := ih.asking_nodup.erase h
        have hkeep : (∀ x a, r = .ok (some a) → h = x → SameName lower a alias → x ∈ s.found) →
            Inv lower alias (steps ++ [.updated h r]) { s with asking := s.asking.erase h } := by
          intro hno
          refine ⟨ih.asked, ih.nodup, hnd, hseen, hask', ?_, base, ih.found_over, by rw [hre']; exact ih.rounds,
            by rw [hre', hf]; exact ih.ends, by rw [hre', hf]; exact ih.left⟩
          intro x
          simp only [ih.found, shows_concat]
          constructor
          · rintro ⟨a, h1, h2⟩
            exact ⟨a, .inl h1, h2⟩
          · rintro ⟨a, h1 | ⟨h1, _⟩, h2⟩
            · exact ⟨a, h1, h2⟩
            · cases h1
              exact (ih.found _).1 (hno _ _ rfl rfl h2)
        cases r with
        | error e => exact hkeep fun x a h' => nomatch h'
        | ok r =>
          cases r with
          | none => exact hkeep fun x a h' => nomatch h'
          | some a =>
            simp only
            by_cases hn : a ≠ "" ∧ lower a = lower alias
            · rw [if_pos hn]
              refine ⟨ih.asked, ih.nodup, hnd, hseen, hask', ?_, ?_, ?_, by rw [hre']; exact ih.rounds, ?_,
                by rw [hre', hf]; exact ih.left⟩
              · intro x
                simp only [List.mem_append, List.mem_singleton, ih.found, shows_concat]
                constructor
                · rintro (⟨b, h1, h2⟩ | rfl)
                  · exact ⟨b, .inl h1, h2⟩
                  · exact ⟨a, .inr ⟨rfl, hah⟩, hn⟩
                · rintro ⟨b, h1 | ⟨h1, _⟩, h2⟩
                  · exact .inl ⟨b, h1, h2⟩
                  · cases h1
                    exact .inr rfl
              · intro _
                exact .inl (by simp)
              · intro _
                rfl
              · intro _ _
                rfl
            · rw [if_neg hn]
              refine hkeep fun x b h1 h2 h3 => ?_
              cases h1
              exact absurd h3 hn
      · rw [if_neg hs]
        refine ⟨ih.asked, ih.nodup, ih.asking_nodup, hseen, ?_, ?_, base, ih.found_over, by rw [hre']; exact ih.rounds,
            by rw [hre', hf]; exact ih.ends, by rw [hre', hf]; exact ih.left⟩
        · intro x
          rw [hask, ih.asking]
          constructor
          · intro h'
            refine ⟨h', fun e => hs ?_⟩
            subst e
            exact (ih.asking _).2 h'
          · exact fun h' => h'.1
        · intro x
          simp only [ih.found, shows_concat]
          constructor
          · rintro ⟨a, h1, h2⟩
            exact ⟨a, .inl h1, h2⟩
          · rintro ⟨a, h1 | ⟨h1, h3⟩, h2⟩
            · exact ⟨a, h1, h2⟩
            · cases h1
              exact absurd ((ih.asking _).2 h3) hs
    | roundEnds =>
      have hre' : roundsEnded (steps ++ [.roundEnds]) = roundsEnded steps + 1 := by rw [hre]; simp [roundsEnded]
      have hf : (Step.roundFails ∉ steps ++ [.roundEnds]) ↔ .roundFails ∉ steps := by simp
      have hseen : ∀ x, x ∈ s.seen ↔ .arrives x ∈ steps ++ [.roundEnds] := by
        intro x
        rw [ih.seen]
        simp
      have hask : ∀ x, x ∈ s.asking ↔ Asking (steps ++ [.roundEnds]) x := by
        intro x
        rw [ih.asking, asking_concat]
        simp
      have hfo : ∀ x, x ∈ s.found ↔ ∃ a, Shows (steps ++ [.roundEnds]) x a ∧ SameName lower a alias := by
        intro x
        simp only [ih.found, shows_concat]
        simp
      have hr := ih.rounds
      have hl := ih.left
      have he := ih.ends
      simp only [searchStep]
      split
      · rename_i h0
        refine ⟨ih.asked, ih.nodup, ih.asking_nodup, hseen, hask, hfo, ?_, ih.found_over, ?_, ?_, ?_⟩
        · intro h
          rcases ih.over h with h | h
          · exact .inl h
          · exact .inr (by omega)
        · intro h
          omega
        · intro h1 _
          exact he (hf.1 h1) (by have := hl (hf.1 h1); omega)
        · intro h1
          have := hl (hf.1 h1)
          omega
      · rename_i h1
        refine ⟨ih.asked, ih.nodup, ih.asking_nodup, hseen, hask, hfo, ?_, fun _ => rfl, ?_, fun _ _ => rfl, ?_⟩
        · intro _
          exact .inr (by omega)
        · intro h
          simp at h
        · intro h
          have := hl (hf.1 h)
          simp only
          omega
      · rename_i n hn
        refine ⟨ih.asked, ih.nodup, ih.asking_nodup, hseen, hask, hfo, ?_, ih.found_over, ?_, ?_, ?_⟩
        · intro h
          rcases ih.over h with h | h
          · exact .inl h
          · exact .inr (by omega)
        · intro _
          simp only
          omega
        · intro h1 h2
          have := hl (hf.1 h1)
          omega
        · intro h1
          have := hl (hf.1 h1)
          simp only
          omega
    | roundFails =>
      have hre' : roundsEnded (steps ++ [.roundFails]) = roundsEnded steps := by rw [hre]; simp [roundsEnded]
      have hn : ¬ (Step.roundFails ∉ steps ++ [.roundFails]) := by simp
      refine ⟨ih.asked, ih.nodup, ih.asking_nodup, ?_, ?_, ?_, ?_, ih.found_over, ?_, fun h => absurd h hn,
        fun h => absurd h hn⟩
      · intro x
        simp only [searchStep]
        rw [ih.seen]
        simp
      · intro x
        simp only [searchStep]
        rw [ih.asking, asking_concat]
        simp
      · intro x
        simp only [searchStep, ih.found, shows_concat]
        simp
      · rw [hre']
        exact ih.over
      · intro h
        simp [searchStep] at h

/-- A device which the search gives showed the alias searched for, ignoring case. -/
theorem C81_found (lower : String → String) (alias : String) (steps : List Step) (host : String)
    (h : search lower alias .start steps = some (some host)) :
    ∃ a, Shows steps host a ∧ SameName lower a alias := by
  obtain ⟨used, left, h1, _, h3, _⟩ := search_prefix lower alias [] steps _ h
  simp only [List.nil_append] at h3
  obtain ⟨a, ⟨p, q, hs, ha⟩, hn⟩ := ((inv lower alias used).found host).1 (by
    rw [eq_comm] at h3
    exact List.mem_of_head? h3)
  refine ⟨a, ⟨p, q ++ left, ?_, ha⟩, hn⟩
  rw [h1, hs]
  simp

/-- The search gives up only after two rounds of discovery, in which no device showed the alias. -/
theorem C81_not_found (lower : String → String) (alias : String) (steps : List Step)
    (h : search lower alias .start steps = some none) :
    ∃ used left, steps = used ++ left ∧ 2 ≤ roundsEnded used ∧
      ∀ host a, Shows used host a → ¬ SameName lower a alias := by
  obtain ⟨used, left, h1, h2, h3, _⟩ := search_prefix lower alias [] steps _ h
  simp only [List.nil_append] at h2 h3
  have hi := inv lower alias used
  have hnil : (after lower alias used).found = [] := List.head?_eq_none_iff.1 h3.symm
  refine ⟨used, left, h1, ?_, ?_⟩
  · rcases hi.over h2 with h | h
    · exact absurd hnil h
    · exact h
  · intro host a hs hn
    have := (hi.found host).2 ⟨a, hs, hn⟩
    rw [hnil] at this
    simp at this

/-- The search gives the device whose update showed the alias first. -/
theorem C81_first (lower : String → String) (alias : String) (before after : List Step) (host a : String)
    (hs : Asking before host) (hn : SameName lower a alias)
    (hw : search lower alias .start before = none) :
    search lower alias .start (before ++ .updated host (.ok (some a)) :: after) = some (some host) := by
  have key : ∀ done rest, (search lower alias (Cli.after lower alias done) rest = none) →
      search lower alias (Cli.after lower alias done) (rest ++ .updated host (.ok (some a)) :: after) =
        search lower alias (Cli.after lower alias (done ++ rest)) (.updated host (.ok (some a)) :: after) ∧
      (Cli.after lower alias (done ++ rest)).over = false := by
    intro done rest
    induction rest generalizing done with
    | nil =>
      intro h
      unfold search at h
      split at h
      · cases h
      · rename_i hf
        exact ⟨by simp, by simpa using hf⟩
    | cons e rest ih =>
      intro h
      unfold search at h
      split at h
      · cases h
      · rename_i hf
        rw [← after_concat] at h
        have := ih (done ++ [e]) h
        simp only [List.append_assoc, List.singleton_append] at this
        refine ⟨?_, this.2⟩
        rw [← this.1, List.cons_append, search, if_neg hf, ← after_concat]
  have hk := key [] before hw
  simp only [List.nil_append] at hk
  have hi := inv lower alias before
  have hnil : (Cli.after lower alias before).found = [] := by
    cases hf : (Cli.after lower alias before).found with
    | nil => rfl
    | cons x xs =>
      have := hi.found_over (by rw [hf]; exact fun h => nomatch h)
      rw [hk.2] at this
      cases this
  have hst : searchStep lower alias (Cli.after lower alias before) (.updated host (.ok (some a))) =
      { Cli.after lower alias before with asking := (Cli.after lower alias before).asking.erase host, found := [host],
                                          over := true } := by
    have hn' : a ≠ "" ∧ lower a = lower alias := hn
    simp only [searchStep, if_pos ((hi.asking _).2 hs), if_pos hn', hnil, List.nil_append]
  rw [show Search.start = Cli.after lower alias [] from rfl, hk.1, search, if_neg (by rw [hk.2]; exact fun h => nomatch h),
    hst]
  cases after with
  | nil => rfl
  | cons x xs => rfl

/-- No device is asked twice. -/
theorem C81_once (lower : String → String) (alias : String) (steps : List Step) :
    (steps.foldl (searchStep lower alias) .start).asked.Nodup := by
  have := inv lower alias steps
  have h := this.nodup
  rw [← this.asked] at h
  exact h

/-- When both rounds of discovery end, so does the search. -/
theorem C81_ends_partial (lower : String → String) (alias : String) (steps : List Step) (hf : .roundFails ∉ steps)
    (h2 : 2 ≤ roundsEnded steps) : search lower alias .start steps ≠ none := by
  have key : ∀ done rest, search lower alias (after lower alias done) rest = none →
      (after lower alias (done ++ rest)).over = false := by
    intro done rest
    induction rest generalizing done with
    | nil =>
      intro h
      unfold search at h
      split at h
      · cases h
      · rename_i hf
        simpa using hf
    | cons e rest ih =>
      intro h
      unfold search at h
      split at h
      · cases h
      · rw [← after_concat] at h
        have := ih (done ++ [e]) h
        simpa using this
  intro h
  have := key [] steps h
  simp only [List.nil_append] at this
  rw [(inv lower alias steps).ends hf h2] at this
  cases this

/-- When a discovery raises an exception before the device is found, the search never ends, whatever happens, unless a
device asked before shows the alias. -/
theorem C81_hangs (lower : String → String) (alias : String) (steps : List Step)
    (h : ∀ host a, Shows (.roundFails :: steps) host a → ¬ SameName lower a alias) :
    search lower alias .start (.roundFails :: steps) = none := by
  cases hs : search lower alias .start (.roundFails :: steps) with
  | none => rfl
  | some r =>
    exfalso
    cases r with
    | some host =>
      obtain ⟨a, h1, h2⟩ := C81_found lower alias _ host hs
      exact h host a h1 h2
    | none =>
      have hz : ∀ l, (after lower alias (.roundFails :: l)).rounds = 0 ∧ ((after lower alias (.roundFails :: l)).over = true →
          (after lower alias (.roundFails :: l)).found ≠ []) := by
        intro l
        induction l using snocRec with
        | nil => exact ⟨rfl, fun h => nomatch h⟩
        | append_singleton l e ih =>
          rw [← List.cons_append, after_concat]
          generalize after lower alias (.roundFails :: l) = s at ih
          cases e with
          | arrives x =>
            simp only [searchStep]
            split <;> exact ih
          | updated x r =>
            simp only [searchStep]
            split
            · split
              · exact ih
              · exact ih
              · split
                · exact ⟨ih.1, fun _ => by simp⟩
                · exact ih
            · exact ih
          | roundEnds =>
            simp only [searchStep]
            rw [ih.1]
            exact ih
          | roundFails => exact ⟨rfl, ih.2⟩
      obtain ⟨used, left, h1, h2, h3, _⟩ := search_prefix lower alias [] _ _ hs
      simp only [List.nil_append] at h2 h3
      cases used with
      | nil =>
        simp [after, Search.start] at h2
      | cons e used =>
        simp only [List.cons_append, List.cons.injEq] at h1
        rw [← h1.1] at h2 h3
        have := (hz used).2 h2
        exact this (List.head?_eq_none_iff.1 h3.symm)

/-- A device whose update failed in the first round is not asked in the second one: it is not found although it answers
there. -/
theorem C81_not_retried (lower : String → String) (a host : String) :
    search lower a .start [.arrives host, .updated host (.error .timeout), .roundEnds, .arrives host,
      .updated host (.ok (some a)), .roundEnds] = some none := by
  simp [search, searchStep, Search.start]

example := C81_found id "lamp" [.arrives "h", .updated "h" (.ok (some "lamp"))] "h" (by simp [search, searchStep, Search.start])
example := C81_not_found id "lamp" [.arrives "h", .roundEnds, .updated "h" (.ok (some "fan")), .roundEnds]
  (by simp [search, searchStep, Search.start])
example := C81_first id "lamp" [.arrives "h"] [.roundEnds] "h" "lamp" ⟨[], [], rfl, by simp, by simp⟩ ⟨by decide, rfl⟩
  (by simp [search, searchStep, Search.start])
example := C81_ends_partial id "lamp" [.arrives "h", .roundEnds, .roundEnds] (by simp) (by simp [roundsEnded])
example := C81_hangs id "lamp" [.arrives "h", .roundEnds, .roundEnds] (by
  rintro host a ⟨p, q, h, _⟩
  rcases p with _ | ⟨_, _ | ⟨_, _ | ⟨_, _ | ⟨_, _⟩⟩⟩⟩ <;> simp at h)

end Kasa.Cli
