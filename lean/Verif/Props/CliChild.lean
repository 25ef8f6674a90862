import Verif.Spec.CliChild
import Verif.Props.Feature
/-!
# C82: a command is run on the child the user named, and on nothing else
-/

namespace Kasa.CliChild

open Cli (Stop)
open Feature (Child)

theorem ranOn_append (l l' : List Event) : ranOn (l ++ l') = ranOn l ++ ranOn l' := by
  induction l with
  | nil => rfl
  | cons e l ih => cases e <;> simp [ranOn, ih]

/-- Nothing is run while a child is chosen. -/
theorem prompt_quiet (n : Nat) (l : List (Option Int)) : ranOn (prompt n l).2 = [] := by
  induction l with
  | nil => rfl
  | cons x l ih =>
    cases x with
    | none => simpa [prompt, ranOn] using ih
    | some i =>
      simp only [prompt]
      split
      · rfl
      · simpa [ranOn] using ih

theorem byIndex_quiet (children : Children) (i : Int) : ranOn (byIndex children i).2 = [] := by
  unfold byIndex
  split
  · rfl
  · split <;> rfl

theorem among_quiet (env : Surroundings) (o : Options) (children : Children) : ranOn (among env o children).2 = [] := by
  unfold among
  split
  · rfl
  · split
    · rfl
    · have := prompt_quiet children.length env.entered
      split
      · simp_all
      · rename_i i l h
        rw [h] at this
        simp [ranOn_append, this, byIndex_quiet]
    · split <;> rfl
    · exact byIndex_quiet _ _
    · rfl

theorem getChildDevice_quiet (env : Surroundings) (o : Options) : ranOn (getChildDevice env o).2 = [] := by
  unfold getChildDevice
  split
  · rfl
  · split
    · split
      · rfl
      · rename_i children _
        have := among_quiet env o children
        split <;> (rename_i h; rw [h] at this; simpa [ranOn] using this)
    · have := among_quiet env o env.children
      split <;> (rename_i h; rw [h] at this; simpa [ranOn] using this)

theorem byIndex_ok (children : Children) (i : Int) (c : Child) :
    (byIndex children i).1 = .ok c ↔ ∃ n : Nat, i = n ∧ ∃ id, children[n]? = some (id, c) := by
  unfold byIndex
  split
  · rename_i h
    constructor
    · intro h'
      exact nomatch h'
    · rintro ⟨n, rfl, id, hn⟩
      have := (List.getElem?_eq_some_iff.1 hn).1
      omega
  · rename_i h
    have hi : i = (i.toNat : Int) := by omega
    constructor
    · intro h'
      refine ⟨i.toNat, hi, ?_⟩
      split at h'
      · rename_i x hx
        cases h'
        exact ⟨x.1, hx⟩
      · exact nomatch h'
    · rintro ⟨n, rfl, id, hn⟩
      simp [hn]

theorem byIndex_error (children : Children) (i : Int) (e : Stop) (h : (byIndex children i).1 = .error e) : e = .exit 1 := by
  unfold byIndex at h
  split at h
  · cases h
    rfl
  · split at h
    · exact nomatch h
    · rename_i h1 h2
      have := List.getElem?_eq_none_iff.1 h2
      omega

theorem prompt_ok (n : Nat) (l : List (Option Int)) (i : Int) :
    (prompt n l).1 = .ok i ↔ ∃ before after, l = before ++ some i :: after ∧ (0 ≤ i ∧ i < n) ∧
      ∀ x ∈ before, ∀ j : Int, x = some j → j < 0 ∨ n ≤ j := by
  induction l with
  | nil => simp [prompt]
  | cons x l ih =>
    have step : (∀ j : Int, x = some j → j < 0 ∨ n ≤ j) → ((prompt n l).1 = .ok i ↔ ∃ before after,
        x :: l = before ++ some i :: after ∧ (0 ≤ i ∧ i < n) ∧
        ∀ y ∈ before, ∀ j : Int, y = some j → j < 0 ∨ n ≤ j) := by
      intro hx
      rw [ih]
      constructor
      · rintro ⟨b, a, rfl, h, hb⟩
        refine ⟨x :: b, a, rfl, h, ?_⟩
        intro y hy
        rcases List.mem_cons.1 hy with rfl | hy
        · exact hx
        · exact hb y hy
      · rintro ⟨b, a, e, h, hb⟩
        cases b with
        | nil =>
          cases e
          rcases hx i rfl with h' | h' <;> omega
        | cons y b =>
          cases e
          exact ⟨b, a, rfl, h, fun z hz => hb z (List.mem_cons_of_mem _ hz)⟩
    cases x with
    | none => simpa [prompt] using step (fun j h => nomatch h)
    | some k =>
      simp only [prompt]
      split
      · rename_i hk
        constructor
        · intro h
          cases h
          exact ⟨[], l, rfl, by omega, by simp⟩
        · rintro ⟨b, a, e, h, hb⟩
          cases b with
          | nil =>
            cases e
            rfl
          | cons y b =>
            cases e
            have := hb _ List.mem_cons_self k rfl
            omega
      · rename_i hk
        exact step (fun j h => by cases h; omega)

theorem prompt_error (n : Nat) (l : List (Option Int)) (e : Stop) (h : (prompt n l).1 = .error e) : e = .abort := by
  induction l with
  | nil =>
    cases h
    rfl
  | cons x l ih =>
    cases x with
    | none => exact ih h
    | some k =>
      simp only [prompt] at h
      split at h
      · exact nomatch h
      · exact ih h

theorem getChild_means (lower : String → String) (children : Children) (s : String) (c : Child) :
    Feature.getChild lower children s = some c ↔ Means lower children s c := by
  have h := Feature.C41_child lower children s
  cases hg : Dict.get? children s with
  | some d =>
    rw [h.1 d hg]
    simp [Means, hg]
  | none =>
    rw [(h.2 hg).1 c]
    simp only [Means, hg, true_and, reduceCtorEq, false_or]
    constructor
    · rintro ⟨b, a, id, e, ha, hb⟩
      exact ⟨b, id, a, e, ha, fun p hp ⟨x, h1, h2, h3⟩ => hb p hp x h1 h2 h3⟩
    · rintro ⟨b, id, a, e, ha, hb⟩
      exact ⟨b, a, id, e, ha, fun p hp x h1 h2 h3 => hb p hp ⟨x, h1, h2, h3⟩⟩

theorem among_ok (env : Surroundings) (o : Options) (children : Children) (c : Child) :
    (among env o children).1 = .ok c ↔ Chosen env o children c := by
  unfold among
  split
  · rename_i h
    subst h
    simp [error, Chosen, Means, Dict.get?]
  · rename_i h
    cases hc : o.child with
    | none =>
      cases hi : o.index with
      | none => simp [Chosen, hc, hi]
      | some i =>
        simp only [byIndex_ok, Chosen, hc, hi]
        simp
    | some x =>
      cases hi : o.index with
      | some i => cases x <;> simp [Chosen, hc, hi]
      | none =>
        cases x with
        | name s =>
          simp only [Chosen, hc, hi, Option.some.injEq, Named.name.injEq, and_true, reduceCtorEq, false_and, exists_false,
            or_false, true_and]
          constructor
          · intro h'
            split at h'
            · rename_i d hd
              cases h'
              exact ⟨s, rfl, (getChild_means _ _ _ _).1 hd⟩
            · exact nomatch h'
          · rintro ⟨s', rfl, hm⟩
            rw [(getChild_means _ _ _ _).2 hm]
        | flag =>
          simp only [Chosen, hc, hi, Option.some.injEq, reduceCtorEq, false_and, exists_false, false_or, true_and]
          constructor
          · intro h'
            split at h'
            · exact nomatch h'
            · rename_i i l hp
              obtain ⟨n, rfl, id, hn⟩ := (byIndex_ok children i c).1 h'
              obtain ⟨b, a, e, _, hb⟩ := (prompt_ok _ _ _).1 (by rw [hp] : (prompt children.length env.entered).1 = .ok _)
              exact ⟨b, a, n, e, ⟨id, hn⟩, hb⟩
          · rintro ⟨b, a, n, e, ⟨id, hn⟩, hb⟩
            have hlt := (List.getElem?_eq_some_iff.1 hn).1
            have hp := (prompt_ok children.length env.entered (n : Int)).2 ⟨b, a, e, by omega, hb⟩
            cases hq : prompt children.length env.entered with
            | mk r l =>
              rw [hq] at hp
              cases hp
              exact (byIndex_ok children n c).2 ⟨n, rfl, id, hn⟩

theorem among_error (env : Surroundings) (o : Options) (children : Children) (e : Stop) (ha : Asked o)
    (h : (among env o children).1 = .error e) : e = .exit 1 ∨ e = .usage ∨ e = .abort ∧ o.child = some .flag := by
  unfold among at h
  split at h
  · cases h
    exact .inl rfl
  · split at h
    · cases h
      exact .inr (.inl rfl)
    · rename_i hf _
      split at h
      · rename_i e' l hp
        cases h
        exact .inr (.inr ⟨prompt_error children.length env.entered _ (by rw [hp]), hf⟩)
      · exact .inl (byIndex_error _ _ _ h)
    · split at h
      · exact nomatch h
      · cases h
        exact .inl rfl
    · exact .inl (byIndex_error _ _ _ h)
    · rename_i h1 h2
      rcases ha with ha | ha
      · exact absurd h1 ha
      · exact absurd h2 ha

/-- Without `--child` and `--child-index` the command is run once on the device itself, nothing else is done, and no
`update` method is replaced. -/
theorem C82_parent (env : Surroundings) (o : Options) (body : Target → Methods → Except Stop Unit × Methods) (m : Methods)
    (h : ¬Asked o) : wrapper env o body m = ((body .parent m).1, [.body .parent], (body .parent m).2) := by
  have : o.child = none ∧ o.index = none := by
    simp only [Asked] at h
    constructor
    · exact Classical.byContradiction fun h' => h (.inl h')
    · exact Classical.byContradiction fun h' => h (.inr h')
  simp [wrapper, getChildDevice, this]

theorem wrapper_ranOn (env : Surroundings) (o : Options) (body : Target → Methods → Except Stop Unit × Methods) (m : Methods) :
    ranOn (wrapper env o body m).2.1 =
      match (getChildDevice env o).1 with
      | .error _ => []
      | .ok none => [.parent]
      | .ok (some c) => [.child c] := by
  have hq := getChildDevice_quiet env o
  unfold wrapper
  cases hg : getChildDevice env o with
  | mk r l =>
    rw [hg] at hq
    cases r with
    | error e => exact hq
    | ok x =>
      cases x with
      | none => simp [ranOn_append, hq, ranOn]
      | some c => simp [ranOn_append, hq, ranOn]

theorem getChildDevice_ok (env : Surroundings) (o : Options) (ha : Asked o) (x : Option Child) :
    (getChildDevice env o).1 = .ok x ↔ ∃ children c, x = some c ∧ known env o = .ok children ∧ Chosen env o children c := by
  have hn : ¬(o.child = none ∧ o.index = none) := by
    rintro ⟨h1, h2⟩
    rcases ha with ha | ha
    · exact ha h1
    · exact ha h2
  have key : ∀ children pre, (match among env o children with
      | (.ok c, l) => ((.ok (some c), pre ++ l) : Except Stop (Option Child) × List Event)
      | (.error e, l) => (.error e, pre ++ l)).1 = .ok x ↔ ∃ c, x = some c ∧ Chosen env o children c := by
    intro children pre
    constructor
    · intro h
      split at h
      · rename_i c l hc
        cases h
        exact ⟨c, rfl, (among_ok env o children c).1 (by rw [hc])⟩
      · exact nomatch h
    · rintro ⟨c, rfl, hc⟩
      have := (among_ok env o children c).2 hc
      split
      · rename_i d l hd
        rw [hd] at this
        cases this
        rfl
      · rename_i e l hd
        rw [hd] at this
        exact nomatch this
  unfold getChildDevice known
  rw [if_neg hn]
  by_cases hc : o.command = "raw-command" ∨ o.command = "command"
  · rw [if_pos (by simpa using hc), if_pos hc]
    cases hu : env.update with
    | error e => simp
    | ok children =>
      have := key children [.update]
      simp only [List.cons_append, List.nil_append] at this
      simp only [Except.ok.injEq]
      constructor
      · intro h
        obtain ⟨c, h1, h2⟩ := this.1 h
        exact ⟨children, c, h1, rfl, h2⟩
      · rintro ⟨_, c, h1, rfl, h2⟩
        exact this.2 ⟨c, h1, h2⟩
  · rw [if_neg (by simpa using hc), if_neg hc]
    have := key env.children []
    simp only [List.nil_append] at this
    simp only [Except.ok.injEq]
    constructor
    · intro h
      obtain ⟨c, h1, h2⟩ := this.1 h
      exact ⟨_, c, h1, rfl, h2⟩
    · rintro ⟨_, c, h1, rfl, h2⟩
      exact this.2 ⟨c, h1, h2⟩

/-- With `--child` or `--child-index` the command is run exactly when the options name a child of the device, once, and on
that child; it is never run on the device itself. -/
theorem C82_child (env : Surroundings) (o : Options) (body : Target → Methods → Except Stop Unit × Methods) (m : Methods)
    (ha : Asked o) :
    (∀ c, ranOn (wrapper env o body m).2.1 = [.child c] ↔ ∃ children, known env o = .ok children ∧ Chosen env o children c) ∧
    (ranOn (wrapper env o body m).2.1 = [] ∨ ∃ c, ranOn (wrapper env o body m).2.1 = [.child c]) := by
  rw [wrapper_ranOn]
  have hk := getChildDevice_ok env o ha
  cases hg : (getChildDevice env o).1 with
  | error e =>
    rw [hg] at hk
    refine ⟨fun c => ⟨fun h => (nomatch h), ?_⟩, .inl rfl⟩
    rintro ⟨children, h1, h2⟩
    exact nomatch (hk (some c)).2 ⟨children, c, rfl, h1, h2⟩
  | ok x =>
    rw [hg] at hk
    obtain ⟨children, c, rfl, h1, h2⟩ := (hk x).1 rfl
    refine ⟨fun d => ⟨?_, ?_⟩, .inr ⟨c, rfl⟩⟩
    · intro h
      cases h
      exact ⟨children, h1, h2⟩
    · rintro ⟨children', h1', h2'⟩
      have := (hk (some d)).2 ⟨children', d, rfl, h1', h2'⟩
      cases this
      rfl

/-- At most one child is named by the options. -/
theorem C82_unique (env : Surroundings) (o : Options) (children : Children) (c d : Child)
    (hc : Chosen env o children c) (hd : Chosen env o children d) : c = d := by
  have h1 := (among_ok env o children c).2 hc
  have h2 := (among_ok env o children d).2 hd
  rw [h1] at h2
  exact Except.ok.inj h2

/-- When the command is not run on a child although one was asked for, the exit status is nonzero, except when the user
ends the input of the prompt: this part of the claim needs the prompt to be answered. -/
theorem C82_reported_partial (env : Surroundings) (o : Options) (body : Target → Methods → Except Stop Unit × Methods)
    (m : Methods) (ha : Asked o) (hf : o.child ≠ some .flag) (hn : ranOn (wrapper env o body m).2.1 = []) :
    Cli.status (wrapper env o body m).1 ≠ 0 := by
  rw [wrapper_ranOn] at hn
  cases hg : getChildDevice env o with
  | mk r l =>
    rw [hg] at hn
    cases r with
    | ok x => cases x <;> exact nomatch hn
    | error e =>
      simp only [wrapper, hg]
      have key : ∀ children e, (among env o children).1 = .error e → Cli.status (.error e) ≠ 0 := by
        intro children e h
        rcases among_error env o children e ha h with rfl | rfl | ⟨_, h⟩
        · exact fun h => nomatch h
        · exact fun h => nomatch h
        · exact absurd h hf
      unfold getChildDevice at hg
      split at hg
      · exact nomatch hg
      · split at hg
        · split at hg
          · cases hg
            exact fun h => nomatch h
          · split at hg
            · exact nomatch hg
            · rename_i e' l' h'
              cases hg
              exact key _ _ (by rw [h'])
        · split at hg
          · exact nomatch hg
          · rename_i e' l' h'
            cases hg
            exact key _ _ (by rw [h'])

/-- When the input of the prompt ends before a child is chosen, the command is not run and the exit status is zero. -/
theorem C82_prompt_aborted (env : Surroundings) (o : Options) (body : Target → Methods → Except Stop Unit × Methods)
    (m : Methods) (hc : o.command ≠ "raw-command" ∧ o.command ≠ "command") (hn : env.children ≠ [])
    (hf : o.child = some .flag) (hi : o.index = none) (he : ∀ x ∈ env.entered, x = none) :
    ranOn (wrapper env o body m).2.1 = [] ∧ Cli.status (wrapper env o body m).1 = 0 := by
  have hp : (prompt env.children.length env.entered).1 = .error .abort := by
    cases h : (prompt env.children.length env.entered).1 with
    | error e => rw [prompt_error _ _ _ h]
    | ok i =>
      obtain ⟨b, a, e, _⟩ := (prompt_ok _ _ _).1 h
      have := he (some i) (by rw [e]; simp)
      exact nomatch this
  have hg : (getChildDevice env o).1 = .error .abort := by
    unfold getChildDevice
    rw [if_neg (by simp [hf]), if_neg (by simp [hc]), among, if_neg hn, hf, hi]
    simp only
    cases h : prompt env.children.length env.entered with
    | mk r l =>
      rw [h] at hp
      cases hp
      rfl
  refine ⟨by rw [wrapper_ranOn, hg], ?_⟩
  cases h : getChildDevice env o with
  | mk r l =>
    rw [h] at hg
    cases hg
    simp [wrapper, h, Cli.status]

/-- Using both options at once, a device without children, an unknown name, and an index out of range are errors: nothing is
run, and the exit status is nonzero. -/
theorem C82_refused (env : Surroundings) (o : Options) (body : Target → Methods → Except Stop Unit × Methods) (m : Methods)
    (children : Children) (hk : known env o = .ok children) (ha : Asked o)
    (h : (o.child ≠ none ∧ o.index ≠ none) ∨ children = [] ∨
      (∃ s, o.child = some (.name s) ∧ Dict.get? children s = none ∧
        ∀ p ∈ children, ∀ a, p.2.alias = some a → env.lower a ≠ env.lower s) ∨
      (o.child = none ∧ ∃ i : Int, o.index = some i ∧ (i < 0 ∨ children.length ≤ i))) :
    ranOn (wrapper env o body m).2.1 = [] ∧
    (o.child ≠ some .flag ∨ o.index ≠ none ∨ children = [] → Cli.status (wrapper env o body m).1 ≠ 0) := by
  have hno : ∀ c, ¬Chosen env o children c := by
    intro c hc
    rcases h with ⟨h1, h2⟩ | h | ⟨s, hs, hg, hal⟩ | ⟨hcn, i, hi, hr⟩
    · rcases hc with ⟨s, _, h, _⟩ | ⟨n, h, _⟩ | ⟨_, h, _⟩
      · exact h2 h
      · exact h1 h
      · exact h2 h
    · subst h
      have := (among_ok env o [] c).2 hc
      simp [among, error] at this
    · rcases hc with ⟨s', hs', _, hm⟩ | ⟨n, h, _⟩ | ⟨h, _⟩
      · rw [hs] at hs'
        cases hs'
        rcases hm with hm | ⟨_, b, id, a, e, ⟨al, h1, h2, h3⟩, _⟩
        · rw [hg] at hm
          exact nomatch hm
        · exact hal (id, c) (by rw [e]; simp) al h1 h3
      · rw [hs] at h
        exact nomatch h
      · rw [hs] at h
        exact nomatch h
    · rcases hc with ⟨s', hs', _⟩ | ⟨n, _, hn, id, hx⟩ | ⟨h, _⟩
      · rw [hcn] at hs'
        exact nomatch hs'
      · rw [hi] at hn
        cases hn
        have := (List.getElem?_eq_some_iff.1 hx).1
        omega
      · rw [hcn] at h
        exact nomatch h
  have hr : ranOn (wrapper env o body m).2.1 = [] := by
    obtain ⟨h1, h2⟩ := C82_child env o body m ha
    rcases h2 with h2 | ⟨c, h2⟩
    · exact h2
    · obtain ⟨children', hk', hc⟩ := (h1 c).1 h2
      rw [hk] at hk'
      cases hk'
      exact absurd hc (hno c)
  refine ⟨hr, fun hx => ?_⟩
  by_cases hf : o.child = some .flag
  · have hg : ∃ e, (among env o children).1 = .error e ∧ (e = .usage ∨ e = .exit 1) := by
      by_cases hc : children = []
      · exact ⟨.exit 1, by simp [among, hc, error], .inr rfl⟩
      · have hi : o.index ≠ none := by
          rcases hx with hx | hx | hx
          · exact absurd hf hx
          · exact hx
          · exact absurd hx hc
        cases hii : o.index with
        | none => exact absurd hii hi
        | some i => exact ⟨.usage, by simp [among, hc, hf, hii], .inl rfl⟩
    obtain ⟨e, hg, he⟩ := hg
    have : ∃ l, getChildDevice env o = (.error e, l) := by
      cases hq : among env o children with
      | mk r l =>
        rw [hq] at hg
        cases hg
        unfold getChildDevice
        rw [if_neg (by simp [hf])]
        unfold known at hk
        by_cases hcm : o.command = "raw-command" ∨ o.command = "command"
        · rw [if_pos hcm] at hk
          rw [if_pos (by simpa using hcm), hk]
          simp only [hq]
          exact ⟨_, rfl⟩
        · rw [if_neg hcm] at hk
          cases hk
          rw [if_neg (by simpa using hcm), hq]
          exact ⟨_, rfl⟩
    obtain ⟨l, hl⟩ := this
    simp only [wrapper, hl]
    rcases he with rfl | rfl <;> exact fun h => nomatch h
  · exact C82_reported_partial env o body m ha hf hr

/-- While the command runs on a child, updating the child updates the whole device; afterwards every child has its own
`update` method again, whether the command succeeded or not, if the command itself left them alone. -/
theorem C82_update (env : Surroundings) (o : Options) (body : Target → Methods → Except Stop Unit × Methods) (m : Methods)
    (c : Child) (hb : ∀ t m, (body t m).2 = m) (hr : ranOn (wrapper env o body m).2.1 = [.child c]) :
    (wrapper env o body m).2.2 = m ∧
    ∃ m', (wrapper env o body m).1 = (body (.child c) m').1 ∧ m' c.tag = .parent ∧ ∀ t, t ≠ c.tag → m' t = m t := by
  rw [wrapper_ranOn] at hr
  cases hg : getChildDevice env o with
  | mk r l =>
    rw [hg] at hr
    cases r with
    | error e => exact nomatch hr
    | ok x =>
      cases x with
      | none => exact nomatch hr
      | some d =>
        cases hr
        simp only [wrapper, hg]
        refine ⟨?_, _, rfl, by simp, ?_⟩
        · funext t
          simp only [hb]
          split
          · rename_i h
            rw [h]
          · rfl
        · intro t ht
          simp [ht]

/-! ## Examples -/

/-- A strip with three plugs, two of them with the same name. -/
def Example.env : Surroundings :=
  { lower := String.toLower, children := [("A", ⟨some "Lamp", 0⟩), ("B", ⟨some "fan", 1⟩), ("C", ⟨some "lamp", 2⟩)],
    update := .ok [("A", ⟨some "Lamp", 0⟩)], entered := [none, some 7, some (-1), some 1, some 0] }

def Example.ranOn (o : Options) : List Target :=
  CliChild.ranOn (wrapper Example.env o (fun _ m => (.ok (), m)) (fun t => .child ⟨none, t⟩)).2.1

example : Example.ranOn { command := "on" } = [.parent] := by decide +kernel
example : Example.ranOn { command := "on", child := some (.name "C") } = [.child ⟨some "lamp", 2⟩] := by decide +kernel
example : Example.ranOn { command := "on", child := some (.name "LAMP") } = [.child ⟨some "Lamp", 0⟩] := by decide +kernel
example : Example.ranOn { command := "on", child := some .flag } = [.child ⟨some "fan", 1⟩] := by decide +kernel
example : Example.ranOn { command := "on", index := some 2 } = [.child ⟨some "lamp", 2⟩] := by decide +kernel
example : Example.ranOn { command := "on", index := some (-1) } = [] := by decide +kernel
example : Example.ranOn { command := "on", index := some 3 } = [] := by decide +kernel
example : Example.ranOn { command := "command", index := some 1 } = [] := by decide +kernel
example : Example.ranOn { command := "on", index := some 1, child := some .flag } = [] := by decide +kernel

end Kasa.CliChild
