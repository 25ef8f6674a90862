import Verif.Spec.Cli
/-!
# Reasoning about runs of the command line tool
-/

namespace Kasa.Cli

/-- From a state with `I`, `m` ends with a value and `Q`, or stops with `E`. -/
def Holds {α : Type} (I : World → Prop) (m : M α) (Q : α → World → Prop) (E : Stop → World → Prop) : Prop :=
  ∀ w, I w → (∀ x w', m w = (.ok x, w') → Q x w') ∧ (∀ e w', m w = (.error e, w') → E e w')

namespace Holds

variable {α β : Type} {I J : World → Prop} {Q : α → World → Prop} {R : β → World → Prop} {E : Stop → World → Prop}

theorem pure' (x : α) (h : ∀ w, I w → Q x w) : Holds I (pure x) Q E := by
  intro w hw
  refine ⟨?_, ?_⟩
  · intro y w' hy
    cases hy
    exact h _ hw
  · intro e w' hy
    cases hy

theorem stop (e : Stop) (h : ∀ w, I w → E e w) : Holds (α := α) I (Cli.stop e) Q E := by
  intro w hw
  refine ⟨?_, ?_⟩
  · intro y w' hy
    cases hy
  · intro e w' hy
    cases hy
    exact h _ hw

theorem bind {m : M α} {f : α → M β} (hm : Holds I m Q E) (hf : ∀ x, Holds (Q x) (f x) R E) :
    Holds I (m >>= f) R E := by
  intro w hw
  have h1 := hm w hw
  have hb : (m >>= f) w = (match m w with
    | (.ok x, w') => f x w'
    | (.error e, w') => (.error e, w')) := rfl
  rw [hb]
  cases hmw : m w with
  | mk r w1 =>
    cases r with
    | ok x =>
      simp only
      exact hf x w1 (h1.1 x w1 hmw)
    | error e =>
      refine ⟨?_, ?_⟩
      · intro y w' hy
        cases hy
      · intro e' w' hy
        cases hy
        exact h1.2 e w1 hmw

theorem act {e : Event} {answer : Nat → Except Stop α}
    (hq : ∀ w x, I w → answer w.log.length = .ok x → Q x { w with log := w.log ++ [e] })
    (he : ∀ w s, I w → answer w.log.length = .error s → E s { w with log := w.log ++ [e] }) :
    Holds I (Cli.act e answer) Q E := by
  intro w hw
  refine ⟨?_, ?_⟩
  · intro y w' hy
    have h1 : answer w.log.length = .ok y := congrArg Prod.fst hy
    have h2 : { w with log := w.log ++ [e] } = w' := congrArg Prod.snd hy
    rw [← h2]
    exact hq w y hw h1
  · intro s w' hy
    have h1 : answer w.log.length = .error s := congrArg Prod.fst hy
    have h2 : { w with log := w.log ++ [e] } = w' := congrArg Prod.snd hy
    rw [← h2]
    exact he w s hw h1

theorem ite {c : Prop} [Decidable c] {m n : M α} (hm : c → Holds I m Q E) (hn : ¬ c → Holds I n Q E) :
    Holds I (if c then m else n) Q E := by
  split
  · exact hm ‹_›
  · exact hn ‹_›

theorem weaken {m : M α} (h : Holds J m Q E) (hi : ∀ w, I w → J w) : Holds I m Q E := fun w hw => h w (hi w hw)

theorem conseq {m : M α} {Q' : α → World → Prop} {E' : Stop → World → Prop} (h : Holds J m Q' E') (hi : ∀ w, I w → J w)
    (hq : ∀ x w, Q' x w → Q x w) (he : ∀ s w, E' s w → E s w) : Holds I m Q E := fun w hw =>
  ⟨fun x w' hx => hq x w' ((h w (hi w hw)).1 x w' hx), fun e w' hx => he e w' ((h w (hi w hw)).2 e w' hx)⟩

/-- `echo` keeps everything which text cannot change. -/
theorem echo (o : Options) (h : ∀ w, I w → I { w with log := w.log ++ [.text] }) :
    Holds I (Cli.echo o) (fun _ => I) E := by
  unfold Cli.echo
  apply ite
  · intro _
    exact pure' _ fun _ h => h
  · intro _
    apply act
    · intro w _ hw _
      exact h w hw
    · intro w s _ hs
      cases hs

theorem error (o : Options) (h : ∀ w, I w → I { w with log := w.log ++ [.text] }) (he : ∀ w, I w → E (.exit 1) w) :
    Holds (α := α) I (Cli.error o) Q E :=
  bind (echo o h) fun _ => stop _ he

end Holds

/-- Every event of the log satisfies `P`. -/
def Logs (P : Event → Prop) (w : World) : Prop := ∀ e ∈ w.log, P e

theorem Logs.add {P : Event → Prop} {w : World} (h : Logs P w) {e : Event} (he : P e) :
    Logs P { w with log := w.log ++ [e] } := by
  intro x hx
  rcases List.mem_append.1 hx with hx | hx
  · exact h x hx
  · rw [List.mem_singleton.1 hx]
    exact he

end Kasa.Cli

namespace Kasa.Cli

open Config

/-- The device objects a run may make. -/
def IsHandle (env : Surroundings) (o : Options) (h : Handle) : Prop :=
  ((o.type.isSome ∧ o.type ≠ some "smart" ∧ o.type ≠ some "camera") ∧
    h = legacyHandle o) ∨
  ((¬(o.type.isSome ∧ o.type ≠ some "smart" ∧ o.type ≠ some "camera") ∧ (o.type.isSome ∨ given o.encryptType = true)) ∧
    ∃ p, params o = .ok p ∧ h = connectedHandle o p) ∨
  ((o.type = none ∧ given o.alias = true ∧ o.host = none) ∧ ∃ n host, env.find n = .ok (some host) ∧ h = namedHandle o host) ∨
  ((o.type = none ∧ given o.alias = false ∧ given o.host = true) ∧ h = discoveredHandle o (o.host.getD ""))

/-- What a run may do before its command. -/
def Allowed (env : Surroundings) (o : Options) : Event → Prop
  | .text => o.json = false
  | .document => False
  | .single host port c => o.host = some host ∧ host ≠ "" ∧ port = o.port ∧ c = credentials o
  | .all t c => t = o.target ∧ c = credentials o ∧ given o.host = false ∧ given o.alias = false
  | .find a t c => o.alias = some a ∧ o.host = none ∧ a ≠ "" ∧ t = o.target ∧ c = credentials o
  | .connect h | .update h | .state h | .disconnect h => IsHandle env o h
  | .command _ _ => False

theorem Spec.Ready.mono {env : Surroundings} {o : Options} {h : Handle} {log : List Event} (hr : Spec.Ready env o h log)
    (e : Event) : Spec.Ready env o h (log ++ [e]) := by
  have hm : ∀ (n : Nat) (x : Event), log[n]? = some x → (log ++ [e])[n]? = some x := by
    intro n x hx
    have hl : n < log.length := by
      rcases Nat.lt_or_ge n log.length with h | h
      · exact h
      · rw [List.getElem?_eq_none h] at hx
        cases hx
    rw [List.getElem?_append_left hl]
    exact hx
  rcases hr with ⟨n, h1, h2⟩ | ⟨n, h1, h2⟩ | ⟨n, a, h1, h2, h3⟩
  · exact .inl ⟨n, hm _ _ h1, h2⟩
  · exact .inr (.inl ⟨n, hm _ _ h1, h2⟩)
  · exact .inr (.inr ⟨n, a, hm _ _ h1, h2, h3⟩)

/-- The invariant of the steps before the device is registered. -/
def Before (env : Surroundings) (o : Options) (w : World) : Prop := Logs (Allowed env o) w ∧ w.held = none

theorem Before.add {env : Surroundings} {o : Options} {w : World} (h : Before env o w) {e : Event} (he : Allowed env o e) :
    Before env o { w with log := w.log ++ [e] } := ⟨h.1.add he, h.2⟩

theorem echo_before (env : Surroundings) (o : Options) (E : Stop → World → Prop) :
    Holds (Before env o) (echo o) (fun _ => Before env o) E := by
  unfold Cli.echo
  apply Holds.ite
  · intro _
    exact .pure' _ fun _ h => h
  · intro hj
    apply Holds.act
    · intro w _ hw _
      exact hw.add (by simpa [Allowed] using hj)
    · intro w s _ hs
      cases hs

theorem error_before {α : Type} (env : Surroundings) (o : Options) (Q : α → World → Prop) :
    Holds (Before env o) (error o) Q (fun s w => Before env o w ∧ s = .exit 1) :=
  .bind (echo_before env o _) fun _ => .stop _ fun _ h => ⟨h, rfl⟩

/-- How a run may stop before a command. -/
def Stopped (env : Surroundings) (o : Options) (_s : Stop) (w : World) : Prop := Before env o w

theorem discoverAll_before (env : Surroundings) (o : Options) (hg : given o.host = false) (ha : given o.alias = false) :
    Holds (Before env o) (discoverAll env o) (fun _ => Before env o) (fun _ => Before env o) := by
  unfold discoverAll
  refine .bind (echo_before env o _) fun _ => .bind (Q := fun _ => Before env o) (.act ?_ ?_) fun r =>
    .bind (echo_before env o _) fun _ => .pure' _ fun _ h => h
  · intro w x hw _
    exact hw.add ⟨rfl, rfl, hg, ha⟩
  · intro w x hw _
    exact hw.add ⟨rfl, rfl, hg, ha⟩

theorem given_iff (x : Option String) : given x = true ↔ ∃ s, x = some s ∧ s ≠ "" := by
  cases x with
  | none => simp [given]
  | some s => simp [given]

theorem printDiscovered_before (env : Surroundings) (o : Options) (h : Handle) (hh : IsHandle env o h) :
    Holds (Before env o) (printDiscovered env o h) (fun _ => Before env o) (fun _ => Before env o) := by
  unfold printDiscovered
  refine .bind (Q := fun _ => Before env o) (.act ?_ ?_) fun r => .bind (Q := fun _ => Before env o) (.ite ?_ ?_) fun _ =>
    echo_before env o _
  · intro w x hw _
    exact hw.add hh
  · intro w x hw _
    exact hw.add hh
  · intro _
    apply Holds.act
    · intro w x hw _
      exact hw.add hh
    · intro w x hw _
      exact hw.add hh
  · intro _
    exact echo_before env o _

theorem discoverHost_before (env : Surroundings) (o : Options) (host : String) (ho : o.host = some host) (hn : host ≠ "")
    (hh : IsHandle env o (discoveredHandle o host)) :
    Holds (Before env o) (discoverHost env o host)
      (fun x w => Before env o w ∧ ∀ h, x = some h → h = discoveredHandle o host) (fun _ => Before env o) := by
  unfold discoverHost
  refine .bind (echo_before env o _) fun _ => .bind (Q := fun _ => Before env o) (.act ?_ ?_) fun found =>
    .ite ?_ ?_
  · intro w x hw _
    exact hw.add ⟨ho, hn, rfl, rfl⟩
  · intro w x hw _
    exact hw.add ⟨ho, hn, rfl, rfl⟩
  · intro _
    apply Holds.ite
    · intro _
      refine .bind (printDiscovered_before env o _ hh) fun _ => .bind (Q := fun _ => Before env o) (.act ?_ ?_) fun _ =>
        .pure' _ ?_
      · intro w x hw _
        exact hw.add hh
      · intro w x hw _
        exact hw.add hh
      · intro w hw
        exact ⟨hw, fun h e => by cases e; rfl⟩
    · intro _
      exact .pure' _ fun w hw => ⟨hw, fun h e => by cases e; rfl⟩
  · intro _
    exact .pure' _ fun w hw => ⟨hw, fun h e => by cases e⟩

/-- What `checks` makes sure of. -/
theorem checks_before (env : Surroundings) (o : Options) :
    Holds (Before env o) (checks env o)
      (fun x w => Before env o w ∧
        (x = true → o.subcommand ≠ some "discover" ∧ ¬(o.alias.isSome ∧ o.host.isSome) ∧
          given o.password = given o.username ∧ ¬(o.host = none ∧ o.alias = none)) ∧
        (x = false → o.subcommand = some "discover" ∨ given o.subcommand = false))
      (fun _ => Before env o) := by
  unfold checks
  have herr : ∀ {α : Type} (Q : α → World → Prop),
      Holds (Before env o) (error (α := α) o) Q (fun _ => Before env o) := fun Q =>
    (error_before env o Q).conseq (fun _ h => h) (fun _ _ h => h) fun _ _ h => h.1
  refine .ite (fun _ => herr _) fun _ => .ite ?_ fun hd => .ite ?_ fun hah => .ite ?_ fun hpu => .ite ?_ ?_
  · intro hd
    exact .pure' _ fun w hw => ⟨hw, fun h => (nomatch h), fun _ => .inl hd⟩
  · intro _
    exact .stop _ fun _ h => h
  · intro _
    exact .stop _ fun _ h => h
  · intro hn
    apply Holds.ite
    · intro _
      exact herr _
    · intro hg
      refine .bind (echo_before env o _) fun _ =>
        .bind (discoverAll_before env o (by rw [hn.1]; rfl) (by rw [hn.2]; rfl)) fun _ => .pure' _ fun w hw =>
          ⟨hw, fun h => (nomatch h), fun _ => .inr (by simpa using hg)⟩
  · intro hn
    exact .pure' _ fun w hw => ⟨hw, fun _ => ⟨hd, hah, by simpa using hpu, hn⟩, fun h => (nomatch h)⟩

theorem mem_log_length (log : List Event) (e : Event) : (log ++ [e])[log.length]? = some e := by
  simp

/-- What `choose` gives. -/
theorem choose_before (env : Surroundings) (o : Options) (hah : ¬(o.alias.isSome ∧ o.host.isSome)) :
    Holds (Before env o) (choose env o)
      (fun x w => Before env o w ∧
        match x with
        | .nothing => o.type = none ∧ given o.alias = true ∧ ∃ n, env.find n = .ok none
        | .device h updated _ => IsHandle env o h ∧ (updated = true → Spec.Ready env o h w.log))
      (fun _ => Before env o) := by
  unfold choose
  refine .ite ?_ fun hl => .ite ?_ fun hs => .ite ?_ fun hal => .ite ?_ fun hho => ?_
  · intro hl
    exact .pure' _ fun w hw => ⟨hw, .inl ⟨hl, rfl⟩, fun h => (nomatch h)⟩
  · intro hs
    have hs' : o.type.isSome ∨ given o.encryptType = true := by
      rcases hs with h | h
      · exact .inl h
      · exact .inr h.2
    cases hp : params o with
    | error e =>
      simp only
      exact .stop _ fun _ h => h
    | ok p =>
      simp only
      have hh : IsHandle env o (connectedHandle o p) := .inr (.inl ⟨⟨hl, hs'⟩, p, hp, rfl⟩)
      refine .bind (Q := fun _ w => Before env o w ∧ Spec.Ready env o (connectedHandle o p) w.log) (.act ?_ ?_) fun _ =>
          .pure' _ fun w hw => ⟨hw.1, hh, fun _ => hw.2⟩
      · intro w x hw hx
        refine ⟨hw.add hh, .inr (.inl ⟨w.log.length, mem_log_length _ _, ?_⟩)⟩
        cases hc : env.connect w.log.length with
        | ok _ => rfl
        | error e =>
          rw [hc] at hx
          cases hx
      · intro w x hw _
        exact hw.add hh
  · intro hal
    have ht : o.type = none := by
      cases ht : o.type with
      | none => rfl
      | some t => exact absurd (.inl (by rw [ht]; rfl)) hs
    obtain ⟨a, ha, hne⟩ := (given_iff _).1 hal
    have hho : o.host = none := by
      cases hho : o.host with
      | none => rfl
      | some x => exact absurd ⟨by rw [ha]; rfl, by rw [hho]; rfl⟩ hah
    have hev : Allowed env o (.find (o.alias.getD "") o.target (credentials o)) := ⟨by rw [ha]; rfl, hho, by rw [ha]; exact hne,
      rfl, rfl⟩
    refine .bind (echo_before env o _) fun _ => ?_
    refine .bind (Q := fun x w => Before env o w ∧ (∃ n a, w.log[n]? = some (.find a o.target (credentials o)) ∧
        o.alias = some a ∧ env.find n = .ok x)) (.act ?_ ?_) fun x => .bind (Q := fun _ w => Before env o w ∧
        (∃ n a, w.log[n]? = some (.find a o.target (credentials o)) ∧ o.alias = some a ∧ env.find n = .ok x)) ?_ fun _ => ?_
    · intro w x hw hx
      refine ⟨hw.add hev, w.log.length, _, mem_log_length _ _, by rw [ha]; rfl, ?_⟩
      cases hc : env.find w.log.length with
      | ok y =>
        rw [hc] at hx
        cases hx
        rfl
      | error e =>
        rw [hc] at hx
        cases hx
    · intro w x hw _
      exact hw.add hev
    · unfold echo
      apply Holds.ite
      · intro _
        exact .pure' _ fun _ h => h
      · intro hj
        apply Holds.act
        · intro w _ hw _
          refine ⟨hw.1.add (by simpa [Allowed] using hj), ?_⟩
          obtain ⟨n, a, h1, h2, h3⟩ := hw.2
          refine ⟨n, a, ?_, h2, h3⟩
          have hl : n < w.log.length := by
            rcases Nat.lt_or_ge n w.log.length with h | h
            · exact h
            · rw [List.getElem?_eq_none h] at h1
              cases h1
          simp only
          rw [List.getElem?_append_left hl]
          exact h1
        · intro w s _ hs
          cases hs
    · cases x with
      | none =>
        simp only
        refine .pure' _ fun w hw => ⟨hw.1, ht, hal, ?_⟩
        obtain ⟨n, a, _, _, h3⟩ := hw.2
        exact ⟨n, h3⟩
      | some host =>
        simp only
        refine .pure' _ fun w hw => ⟨hw.1, ?_, fun _ => .inr (.inr ?_)⟩
        · obtain ⟨n, a, _, _, h3⟩ := hw.2
          exact .inr (.inr (.inl ⟨⟨ht, hal, hho⟩, n, host, h3, rfl⟩))
        · exact hw.2
  · intro hho
    have ht : o.type = none := by
      cases ht : o.type with
      | none => rfl
      | some t => exact absurd (.inl (by rw [ht]; rfl)) hs
    obtain ⟨x, hx, hne⟩ := (given_iff _).1 hho
    have hh : IsHandle env o (discoveredHandle o (o.host.getD "")) :=
      .inr (.inr (.inr ⟨⟨ht, by simpa using hal, hho⟩, rfl⟩))
    refine .bind (discoverHost_before env o _ (by rw [hx]; rfl) (by rw [hx]; exact hne) hh) fun r => ?_
    cases r with
    | none =>
      simp only
      exact (error_before env o _).conseq (fun _ h => h.1) (fun _ _ h => h) fun _ _ h => h.1
    | some h =>
      simp only
      refine .pure' _ fun w hw => ⟨hw.1, ?_, fun h => (nomatch h)⟩
      rw [hw.2 h rfl]
      exact hh
  · refine .bind (discoverAll_before env o (by simpa using hho) (by simpa using hal)) fun any => .ite ?_ ?_
    · intro _
      exact .stop _ fun _ h => h
    · intro _
      exact (error_before env o _).conseq (fun _ h => h) (fun _ _ h => h) fun _ _ h => h.1

/-- What `cli` leaves. -/
theorem cli_holds (env : Surroundings) (o : Options) :
    Holds (Before env o) (cli env o)
      (fun x w => Logs (Allowed env o) w ∧ w.held = x ∧
        (∀ h, x = some h → IsHandle env o h ∧ (skipsUpdate o.subcommand = false → Spec.Ready env o h w.log)) ∧
        (x = none → o.subcommand = some "discover" ∨ given o.subcommand = false ∨
          (o.type = none ∧ given o.alias = true ∧ ∃ n, env.find n = .ok none)))
      (fun _ w => Logs (Allowed env o) w ∧ ∀ h, w.held = some h → IsHandle env o h ∧ o.subcommand = none) := by
  unfold cli
  have hb : ∀ w, Before env o w → Logs (Allowed env o) w ∧ ∀ h, w.held = some h → IsHandle env o h ∧ o.subcommand = none :=
    fun w hw => ⟨hw.1, fun h hh => by rw [hw.2] at hh; cases hh⟩
  refine .bind ((checks_before env o).conseq (fun _ h => h) (fun _ _ h => h) fun _ w hw => hb w hw) fun c => .ite ?_ ?_
  · intro hc
    intro w hw
    have hc' := hw.2.1 hc
    refine (Holds.bind ((choose_before env o hc'.2.1).conseq (fun _ h => h) (fun _ _ h => h) fun _ w hw => hb w hw)
      fun x => ?_) w hw.1
    cases x with
    | nothing =>
      exact .pure' _ fun w hw => ⟨hw.1.1, hw.1.2, fun h e => (nomatch e), fun _ => .inr (.inr hw.2)⟩
    | device h updated discovered =>
      unfold opened doIf
      refine .bind (Q := fun _ w => Before env o w ∧ IsHandle env o h ∧
        (skipsUpdate o.subcommand = false → Spec.Ready env o h w.log)) (.ite ?_ ?_) fun _ => ?_
      · intro hu
        apply Holds.act
        · intro w x hw hx
          refine ⟨hw.1.add hw.2.1, hw.2.1, fun _ => .inl ⟨w.log.length, mem_log_length _ _, ?_⟩⟩
          cases hc : env.update w.log.length with
          | ok y => rfl
          | error e =>
            rw [hc] at hx
            cases hx
        · intro w x hw _
          refine ⟨hw.1.1.add (show Allowed env o (.update h) from hw.2.1), fun h hh => ?_⟩
          rw [show w.held = none from hw.1.2] at hh
          cases hh
      · intro hu
        refine .pure' _ fun w hw => ⟨hw.1, hw.2.1, fun hs => hw.2.2 ?_⟩
        rw [hs] at hu
        simpa using hu
      · refine .bind (Q := fun _ w => Logs (Allowed env o) w ∧ w.held = some h ∧ IsHandle env o h ∧
          (skipsUpdate o.subcommand = false → Spec.Ready env o h w.log)) ?_ fun _ => ?_
        · intro w hw
          refine ⟨?_, ?_⟩
          · intro x w' hx
            cases hx
            exact ⟨hw.1.1, rfl, hw.2⟩
          · intro x w' hx
            cases hx
        · refine .bind (Q := fun _ w => Logs (Allowed env o) w ∧ w.held = some h ∧ IsHandle env o h ∧
            (skipsUpdate o.subcommand = false → Spec.Ready env o h w.log)) (.ite ?_ ?_) fun _ => ?_
          · intro hn
            apply Holds.act
            · intro w x hw _
              exact ⟨hw.1.add hw.2.2.1, hw.2.1, hw.2.2.1, fun hs => (hw.2.2.2 hs).mono _⟩
            · intro w x hw _
              refine ⟨hw.1.add hw.2.2.1, fun h' hh => ?_⟩
              rw [show w.held = some h from hw.2.1] at hh
              cases hh
              exact ⟨hw.2.2.1, (of_decide_eq_true hn).1⟩
          · intro _
            exact .pure' _ fun w hw => hw
          · refine .pure' _ fun w hw => ⟨hw.1, hw.2.1, ?_, fun e => (nomatch e)⟩
            intro h' e
            cases e
            exact hw.2.2
  · intro hc
    refine .pure' _ fun w hw => ⟨hw.1.1, hw.1.2, fun h e => (nomatch e), fun _ => ?_⟩
    rcases hw.2.2 (by simpa using hc) with h | h
    · exact .inl h
    · exact .inr (.inl h)

end Kasa.Cli

namespace Kasa.Cli

theorem bind_ok' {α β : Type} {m : M α} {f : α → M β} {w w' : World} {x : α} (h : m w = (.ok x, w')) :
    (m >>= f) w = f x w' := by
  simp only [Bind.bind, h]

theorem bind_error' {α β : Type} {m : M α} {f : α → M β} {w w' : World} {e : Stop} (h : m w = (.error e, w')) :
    (m >>= f) w = (.error e, w') := by
  simp only [Bind.bind, h]

/-- The closing of the registered device, as events. -/
def closing : Option Handle → List Event
  | none => []
  | some h => [.disconnect h]

/-- The runs which stop before their command, and those which do not. -/
theorem run_cases (env : Surroundings) (o : Options) :
    (∃ s w, (∀ e ∈ w.log, Allowed env o e) ∧ (∀ h, w.held = some h → IsHandle env o h ∧ o.subcommand = none) ∧
      cli env o { log := [], held := none } = (.error s, w) ∧
      (run env o).2 = w.log ++ closing w.held ∧ (status (.error s) ≠ 0 → (run env o).1 ≠ 0)) ∨
    (∃ x before, (∀ e ∈ before, Allowed env o e) ∧
      (∀ h, x = some h → IsHandle env o h ∧ (skipsUpdate o.subcommand = false → Spec.Ready env o h before)) ∧
      (x = none → o.subcommand = some "discover" ∨ given o.subcommand = false ∨
          (o.type = none ∧ given o.alias = true ∧ ∃ n, env.find n = .ok none)) ∧
      cli env o { log := [], held := none } = (.ok x, { log := before, held := x }) ∧
      ((given o.subcommand = false ∧
          (run env o).2 = before ++ (if o.json then [.document] else []) ++ closing x) ∨
       (given o.subcommand = true ∧ ∃ r, env.command before.length = r ∧
          (run env o).2 = before ++ .command (o.subcommand.getD "") x ::
            ((if r.isOk && o.json then [.document] else []) ++ closing x) ∧
          ((run env o).1 = 0 → status r = 0) ∧ ((∀ n, env.disconnect n = .ok ()) → (run env o).1 = status r)))) := by
  have hc := cli_holds env o { log := [], held := none } ⟨fun e he => by simp at he, rfl⟩
  cases hcl : cli env o { log := [], held := none } with
  | mk r w =>
    cases r with
    | error s =>
      left
      have h := hc.2 s w hcl
      have hg : group env o { log := [], held := none } = (.error s, w) := by
        unfold group
        exact bind_error' hcl
      refine ⟨s, w, h.1, h.2, rfl, ?_, ?_⟩
      · unfold run
        rw [hg]
        simp only
        cases w.held with
        | none => simp [closing]
        | some d =>
          simp only [closing]
          cases env.disconnect w.log.length <;> rfl
      · intro hs
        unfold run
        rw [hg]
        simp only
        cases w.held with
        | none => exact hs
        | some d =>
          simp only
          cases env.disconnect w.log.length with
          | ok _ => exact hs
          | error _ => simp [status]
    | ok x =>
      right
      have h := hc.1 x w hcl
      obtain ⟨log, held⟩ := w
      obtain ⟨h1, h2, h3, h4⟩ := h
      simp only at h2
      subst h2
      have hg : group env o { log := [], held := none } = (do
            doIf (given o.subcommand) (act (.command (o.subcommand.getD "") held) env.command)
            doIf o.json (act .document fun _ => .ok ()) : M Unit) { log := log, held := held } := by
        unfold group
        exact bind_ok' hcl
      refine ⟨held, log, h1, h3, h4, rfl, ?_⟩
      cases hgs : given o.subcommand with
      | false =>
        left
        refine ⟨rfl, ?_⟩
        have hg' : group env o { log := [], held := none } = (.ok (), { log := log ++ (if o.json then [.document] else []), held := held }) := by
          rw [hg, hgs]
          cases o.json with
          | false => simp [doIf, Bind.bind, Pure.pure]
          | true => simp [doIf, Bind.bind, Pure.pure, act]
        unfold run
        rw [hg']
        simp only
        cases held with
        | none => simp [closing]
        | some d =>
          simp only [closing]
          split <;> rfl
      | true =>
        right
        refine ⟨rfl, _, rfl, ?_⟩
        cases hr : env.command log.length with
        | error e =>
          have hg' : group env o { log := [], held := none } = (.error e, { log := log ++ [.command (o.subcommand.getD "") held], held := held }) := by
            rw [hg, hgs]
            simp [doIf, Bind.bind, act, hr]
          refine ⟨?_, ?_, ?_⟩
          · unfold run
            rw [hg']
            simp only [Except.isOk, Except.toBool, Bool.false_and, Bool.false_eq_true, if_false, List.nil_append]
            cases held with
            | none => simp [closing]
            | some d =>
              simp only [closing]
              split <;> simp
          · unfold run
            rw [hg']
            simp only
            cases held with
            | none => exact id
            | some d =>
              simp only
              split
              · exact id
              · intro h
                simp [status] at h
          · intro hd
            unfold run
            rw [hg']
            simp only
            cases held with
            | none => rfl
            | some d =>
              simp only
              rw [hd]
        | ok u =>
          have hg' : group env o { log := [], held := none } = (.ok (), { log := log ++ .command (o.subcommand.getD "") held :: (if o.json then [.document] else []), held := held }) := by
            rw [hg, hgs]
            cases o.json with
            | false => simp [doIf, Bind.bind, act, hr, Pure.pure]
            | true => simp [doIf, Bind.bind, act, hr]
          refine ⟨?_, ?_, ?_⟩
          · unfold run
            rw [hg']
            simp only [Except.isOk, Except.toBool, Bool.true_and]
            cases held with
            | none => simp [closing]
            | some d =>
              simp only [closing]
              split <;> simp
          · intro _
            rfl
          · intro hd
            unfold run
            rw [hg']
            simp only
            cases held with
            | none => rfl
            | some d =>
              simp only
              rw [hd]

end Kasa.Cli

namespace Kasa.Cli

/-- Stopping with something else than zero. -/
def Nonzero (s : Stop) (_w : World) : Prop := status (.error s) ≠ 0

theorem echo_nonzero (o : Options) : Holds (fun _ => True) (echo o) (fun _ _ => True) Nonzero := .echo o fun _ _ => trivial

theorem error_nonzero {α : Type} (o : Options) (Q : α → World → Prop) : Holds (fun _ => True) (error o) Q Nonzero :=
  .error o (fun _ _ => trivial) fun _ _ => by simp [Nonzero, status]

theorem raised_nonzero {α : Type} (e : Event) (f : Nat → Except Exc α) :
    Holds (fun _ => True) (act e fun n => raised (f n)) (fun _ _ => True) Nonzero := by
  refine .act (fun _ _ _ _ => trivial) ?_
  intro w s _ hs
  cases hf : f w.log.length with
  | ok x =>
    rw [hf] at hs
    cases hs
  | error x =>
    rw [hf] at hs
    cases hs
    simp [Nonzero, status]

theorem discoverAll_nonzero (env : Surroundings) (o : Options) :
    Holds (fun _ => True) (discoverAll env o) (fun _ _ => True) Nonzero := by
  unfold discoverAll
  exact .bind (echo_nonzero o) fun _ => .bind (raised_nonzero _ _) fun _ => .bind (echo_nonzero o) fun _ =>
    .pure' _ fun _ _ => trivial

/-- With a subcommand, `cli` stops only with a status which is not zero. -/
theorem cli_nonzero (env : Surroundings) (o : Options) (hs : o.subcommand ≠ none) :
    Holds (fun _ => True) (cli env o) (fun _ _ => True) Nonzero := by
  unfold cli
  refine .bind (Q := fun x _ => x = true → o.subcommand ≠ some "discover") ?_ fun c => .ite ?_ ?_
  · unfold checks
    refine .ite (fun _ => error_nonzero o _) fun _ => .ite (fun _ => .pure' _ fun _ _ h => (nomatch h)) fun hd =>
      .ite (fun _ => .stop _ fun _ _ => by simp [Nonzero, status]) fun _ =>
      .ite (fun _ => .stop _ fun _ _ => by simp [Nonzero, status]) fun _ =>
      .ite (fun _ => .ite (fun _ => error_nonzero o _) fun _ => ?_) fun _ => .pure' _ fun _ _ _ => hd
    exact .bind (echo_nonzero o) fun _ => .bind (discoverAll_nonzero env o) fun _ => .pure' _ fun _ _ h => (nomatch h)
  · intro hc
    intro w hw
    have hr : isRoot o = false := by
      simp [isRoot, hs, hw hc]
    refine (Holds.bind (Q := fun _ _ => True) (I := fun _ => True) ?_ fun x => ?_) w trivial
    · unfold choose
      refine .ite (fun _ => .pure' _ fun _ _ => trivial) fun _ => .ite ?_ fun _ => .ite ?_ fun _ => .ite ?_ fun _ => ?_
      · intro _
        cases params o with
        | error e => exact .stop _ fun _ _ => by simp [Nonzero, status]
        | ok p => exact .bind (raised_nonzero _ _) fun _ => .pure' _ fun _ _ => trivial
      · intro _
        refine .bind (echo_nonzero o) fun _ => .bind (raised_nonzero _ _) fun x => .bind (echo_nonzero o) fun _ => ?_
        cases x with
        | none => exact .pure' _ fun _ _ => trivial
        | some x => exact .pure' _ fun _ _ => trivial
      · intro _
        refine .bind (Q := fun _ _ => True) ?_ fun x => ?_
        · unfold discoverHost
          rw [hr]
          refine .bind (echo_nonzero o) fun _ => .bind (raised_nonzero _ _) fun _ => .ite ?_ ?_
          · intro _
            exact .pure' _ fun _ _ => trivial
          · intro _
            exact .pure' _ fun _ _ => trivial
        · cases x with
          | none => exact error_nonzero o _
          | some x => exact .pure' _ fun _ _ => trivial
      · exact .bind (discoverAll_nonzero env o) fun _ => .ite (fun _ => .stop _ fun _ _ => by simp [Nonzero, status])
          fun _ => error_nonzero o _
    · cases x with
      | nothing => exact .pure' _ fun _ _ => trivial
      | device h updated discovered =>
        unfold opened doIf
        refine .bind (Q := fun _ _ => True) (.ite (fun _ => raised_nonzero _ _) fun _ => .pure' _ fun _ _ => trivial)
          fun _ => .bind (Q := fun _ _ => True) ?_ fun _ => .bind (Q := fun _ _ => True) (.ite ?_ fun _ => .pure' _ fun _ _ => trivial)
          fun _ => .pure' _ fun _ _ => trivial
        · intro w _
          exact ⟨fun _ _ _ => trivial, fun e w' h => by cases h⟩
        · intro h
          exact absurd (of_decide_eq_true h).1 hs
  · intro _
    exact .pure' _ fun _ _ => trivial

end Kasa.Cli
