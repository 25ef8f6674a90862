import Verif.Spec.CliCommands
/-!
# C83: what the commands of the command line tool do to the device
-/

namespace Kasa.CliCommand

open Spec C
open Cli (Stop given)

theorem calls_append (l t : List Act) : calls (l ++ t) = calls l ++ calls t := by
  induction l with
  | nil => rfl
  | cons x l ih => cases x <;> simp [calls, ih]

theorem changes_append (l t : List Act) : changes (l ++ t) = changes l ++ changes t := by
  simp [changes, calls_append]

/-- The changes a computation makes are those given, or the first of them; all of them if it ends without an exception. -/
def Does {α : Type} (n : List Call) (m : C α) : Prop :=
  ∀ l, ∃ t, (m l).2 = l ++ t ∧ changes t <+: n ∧ (∀ x, (m l).1 = .ok x → changes t = n)

namespace Does

variable {α β : Type}

theorem pure' (x : α) : Does [] (pure x : C α) := fun l => ⟨[], by simp [pure], List.nil_prefix, fun _ _ => rfl⟩

theorem stop (n : List Call) (e : Stop) : Does n (C.stop e : C α) :=
  fun l => ⟨[], by simp [C.stop], List.nil_prefix, fun x h => nomatch h⟩

theorem bind {n k : List Call} {m : C α} {f : α → C β} (hm : Does n m) (hf : ∀ x, Does k (f x)) :
    Does (n ++ k) (m >>= f) := by
  intro l
  obtain ⟨t, h1, h2, h3⟩ := hm l
  simp only [Bind.bind]
  cases hr : m l with
  | mk r l' =>
    rw [hr] at h1 h3
    cases r with
    | error e =>
      refine ⟨t, h1, ?_, fun x h => nomatch h⟩
      exact h2.trans (List.prefix_append _ _)
    | ok x =>
      simp only at h1 h3 ⊢
      obtain ⟨t', h1', h2', h3'⟩ := hf x l'
      refine ⟨t ++ t', by rw [h1', h1, List.append_assoc], ?_, ?_⟩
      · rw [changes_append, h3 x rfl]
        exact (List.prefix_append_right_inj n).2 h2'
      · intro y hy
        rw [changes_append, h3 x rfl, h3' y hy]

theorem bind_nil {n : List Call} {m : C α} {f : α → C β} (hm : Does n m) (hf : ∀ x, Does [] (f x)) : Does n (m >>= f) := by
  have := bind hm hf
  rwa [List.append_nil] at this

theorem nil_bind {n : List Call} {m : C α} {f : α → C β} (hm : Does [] m) (hf : ∀ x, Does n (f x)) : Does n (m >>= f) :=
  bind hm hf

theorem echo : Does [] C.echo := fun l => ⟨[.echo], rfl, List.nil_prefix, fun _ _ => rfl⟩

theorem print : Does [] C.print := fun l => ⟨[.print], rfl, List.nil_prefix, fun _ _ => rfl⟩

theorem error (n : List Call) : Does n C.error := nil_bind echo fun _ => stop n _

theorem confirm (a : Answers) : Does [] (C.confirm a) := fun l => ⟨[.ask], rfl, List.nil_prefix, fun _ _ => rfl⟩

theorem set (a : Answers) (c : Call) (h : Reads c = false) : Does [c] (C.call a c) := by
  intro l
  have : changes [.call c] = [c] := by simp [changes, calls, h]
  exact ⟨[.call c], rfl, by rw [this]; exact List.prefix_refl _, fun _ _ => this⟩

theorem read (a : Answers) (c : Call) (h : Reads c = true) : Does [] (C.call a c) := by
  intro l
  have : changes [.call c] = [] := by simp [changes, calls, h]
  exact ⟨[.call c], rfl, by rw [this]; exact List.nil_prefix, fun _ _ => this⟩

theorem ite {n : List Call} {p : Prop} [Decidable p] {x y : C α} (hx : p → Does n x) (hy : ¬ p → Does n y) :
    Does n (if p then x else y) := by
  split
  · exact hx ‹_›
  · exact hy ‹_›

/-- `echo`, then a setting. -/
theorem echo_set (a : Answers) (c : Call) (h : Reads c = false) :
    Does [c] (do
      C.echo
      C.call a c) := nil_bind echo fun _ => set a c h

/-- `echo`, then a setting, then another `echo`. -/
theorem echo_set_echo (a : Answers) (c : Call) (h : Reads c = false) :
    Does [c] (do
      C.echo
      C.call a c
      C.echo) := nil_bind echo fun _ => bind_nil (set a c h) fun _ => echo

/-- `echo`, then a setting, then an update and another `echo`. -/
theorem echo_set_update (a : Answers) (c : Call) (h : Reads c = false) :
    Does [c] (do
      C.echo
      C.call a c
      C.call a .update
      C.echo) :=
  nil_bind echo fun _ => bind_nil (set a c h) fun _ => nil_bind (read a _ rfl) fun _ => echo

theorem echo_read_echo (a : Answers) (c : Call) (h : Reads c = true) :
    Does [] (do
      C.echo
      C.call a c
      C.echo) := nil_bind echo fun _ => nil_bind (read a c h) fun _ => echo

end Does

theorem given_zone (z : Option String) : (if given z then z else none) = (if z = some "" then none else z) := by
  cases z with
  | none => rfl
  | some s =>
    by_cases h : s = ""
    · simp [given, h]
    · simp [given, h]

theorem index_zero {α : Type} (xs : List α) (i : Int) (h : 0 ≤ i) (l : List Act) :
    index xs i l = match xs[i.toNat]? with
      | some x => (.ok x, l)
      | none => (.error (.failed (.other "IndexError")), l) := by
  unfold index
  rw [if_neg (by omega)]
  cases xs[i.toNat]? with
  | none => rfl
  | some x =>
    simp only
    rw [if_neg (by omega)]
    rfl

theorem getTimezone_does (a : Answers) (f : Facts) (z : String) (s : Bool) : Does [] (getTimezone a f z s) := by
  unfold getTimezone
  exact .ite (fun _ => .error _) fun _ => .ite (fun _ => .ite (fun _ => .error _) fun _ => .confirm a) fun _ => .pure' _

theorem does_wanted (a : Answers) (f : Facts) (c : Command) (ho : ¬ Odd f c) :
    Does (Wanted a f c).toList (runCommand a f c) := by
  cases c with
  | state => exact .echo
  | sysinfo => exact .echo
  | on t => exact .echo_set a _ rfl
  | off t => exact .echo_set a _ rfl
  | toggle t =>
    simp only [runCommand, toggle, Wanted]
    cases f.isOn
    · exact .echo_set a _ rfl
    · exact .echo_set a _ rfl
  | led v =>
    refine .ite (fun _ => .error _) fun _ => ?_
    cases v with
    | none => exact .echo
    | some v => exact .echo_set a _ rfl
  | alias v =>
    cases v with
    | none => exact .echo
    | some v => exact .echo_set_update a _ rfl
  | reboot d => exact .echo_set a _ rfl
  | factoryReset => exact .nil_bind (.confirm a) fun _ => .set a _ rfl
  | updateCredentials u p =>
    exact .ite (fun _ => .error _) fun _ => .nil_bind (.confirm a) fun _ => .set a _ rfl
  | logs => exact .ite (fun _ => .nil_bind (.read a _ rfl) fun _ => .print) fun _ => .pure' _
  | brightness v t =>
    refine .ite (fun _ => .error _) fun _ => ?_
    cases v with
    | none => exact .echo
    | some v => exact .echo_set a _ rfl
  | temperature v t =>
    refine .ite (fun _ => .error _) fun _ => ?_
    cases v with
    | none => exact .echo
    | some v => exact .echo_set a _ rfl
  | effect e =>
    simp only [runCommand, effect]
    cases f.effects with
    | none => exact .error _
    | some effects =>
      cases e with
      | none => exact .echo
      | some e => exact .ite (fun _ => .echo_set a _ rfl) fun _ => .stop _ _
  | hsv h s v t =>
    simp only [runCommand, hsv]
    refine .ite (fun _ => .error _) fun _ => ?_
    by_cases hn : h = none ∧ s = none ∧ v = none
    · rw [if_pos hn]
      obtain ⟨rfl, rfl, rfl⟩ := hn
      exact .echo
    · rw [if_neg hn]
      cases s with
      | none => exact .stop _ _
      | some s =>
        cases v with
        | none => exact .stop _ _
        | some v => exact .echo_set a _ rfl
  | presetsList =>
    simp only [runCommand, presetsList]
    cases f.presets with
    | none => exact .error _
    | some _ => exact .echo
  | presetsModify i b h s t =>
    have hi : 0 ≤ i := by
      rcases Int.lt_or_le i 0 with h' | h'
      · exact absurd (.inl h') ho
      · exact h'
    have ht : t = none := by
      cases t with
      | none => rfl
      | some t => exact absurd (.inr (fun h => nomatch h)) ho
    subst ht
    simp only [runCommand, presetsModify]
    cases hp : f.presets with
    | none => exact .error _
    | some presets =>
      simp only
      refine .ite (fun _ => .error _) fun hl => .ite (fun _ => .error _) fun _ => ?_
      have hlt : i.toNat < presets.length := by omega
      obtain ⟨⟨name, p⟩, hget⟩ : ∃ x, presets[i.toNat]? = some x := ⟨_, List.getElem?_eq_getElem hlt⟩
      have hw : Wanted a f (.presetsModify i b h s none) = some (.savePreset name ⟨override b p.brightness, override h p.hue,
          override s p.saturation, override none p.colorTemp⟩) := by
        simp only [Wanted, hp, if_pos hi, hget]
      rw [hw]
      have e1 : ∀ l, index ("Not set" :: presets.map (·.1)) (i + 1) l = (.ok name, l) := by
        intro l
        rw [index_zero _ _ (by omega), show (i + 1).toNat = i.toNat + 1 from by omega]
        simp [hget]
      have e2 : ∀ l, index (presets.map (·.2)) i l = (.ok p, l) := by
        intro l
        rw [index_zero _ _ hi]
        simp [hget]
      have hov : ∀ n o, change n o = override n o := by
        intro n o
        cases n <;> cases o <;> rfl
      intro l
      have := Does.nil_bind .echo (fun _ => Does.echo_set a (.savePreset name ⟨override b p.brightness, override h p.hue,
          override s p.saturation, override none p.colorTemp⟩) rfl) l
      simp only [Bind.bind, e1, e2, Option.isSome_none, Bool.false_eq_true, if_false, hov]
      exact this
  | turnOnBehavior t l p =>
    simp only [runCommand, turnOnBehavior]
    refine .ite (fun _ => .error _) fun _ => .nil_bind (.read a _ rfl) fun _ => .nil_bind .echo fun _ => ?_
    cases t with
    | none => exact .ite (fun _ => .pure' _) fun _ => .echo
    | some t =>
      rw [if_neg (fun h => nomatch h.1)]
      have hn : ∀ o, newPreset l p o = if l then none else p.or o := by
        intro o
        cases l <;> cases p <;> rfl
      refine .nil_bind .echo fun _ => ?_
      by_cases hs : t = "soft"
      · subst hs
        rw [if_pos rfl, hn]
        exact .set a _ rfl
      · rw [if_neg hs, hn]
        have : Wanted a f (.turnOnBehavior (some t) l p) =
            some (.setTurnOnBehavior f.behavior.1 (if l then none else p.or f.behavior.2)) := by
          simp only [Wanted]
        rw [this]
        exact .set a _ rfl
  | timeGet => exact .echo
  | timeSync z s =>
    simp only [runCommand, timeSync, Wanted, given_zone]
    have : f.hasTime = true := by
      cases h : f.hasTime with
      | true => rfl
      | false => exact absurd h ho
    rw [this]
    refine .nil_bind ?_ fun _ => .echo_set_update a _ rfl
    cases z with
    | none => exact .pure' _
    | some z =>
      exact .ite (fun _ => .pure' _) fun _ => .nil_bind (getTimezone_does a f z s) fun _ =>
        .ite (fun _ => .error _) fun _ => .pure' _
  | timeSet d z s =>
    simp only [runCommand, timeSet, Wanted, given_zone]
    have : f.hasTime = true := by
      cases h : f.hasTime with
      | true => rfl
      | false => exact absurd h ho
    rw [this]
    refine .nil_bind ?_ fun _ => .nil_bind .echo fun _ => .ite (fun _ => ?_) fun _ => .stop _ _
    · cases z with
      | none => exact .pure' _
      | some z => exact .ite (fun _ => .pure' _) fun _ => getTimezone_does a f z s
    · exact .bind_nil (.set a _ rfl) fun _ => .nil_bind (.read a _ rfl) fun _ => .echo
  | energy y m e =>
    simp only [runCommand, energy]
    refine .nil_bind .echo fun _ => .ite (fun _ => .error _) fun _ => .ite (fun _ => .error _) fun _ => ?_
    cases e with
    | true => exact .echo_set a _ rfl
    | false =>
      rw [if_neg (fun h => nomatch h)]
      cases y with
      | some y => exact .echo_read_echo a _ rfl
      | none =>
        cases m with
        | some m => exact .echo_read_echo a _ rfl
        | none => exact .echo
  | usage y m e =>
    simp only [runCommand, usage]
    refine .nil_bind .echo fun _ => .ite (fun _ => .stop _ _) fun _ => ?_
    cases e with
    | true => exact .echo_set a _ rfl
    | false =>
      rw [if_neg (fun h => nomatch h)]
      cases y with
      | some y => exact .echo_read_echo a _ rfl
      | none =>
        cases m with
        | some m => exact .echo_read_echo a _ rfl
        | none => exact .echo
  | scheduleList t =>
    simp only [runCommand, scheduleList]
    cases f.rules.get? t with
    | none => exact .stop _ _
    | some rules => exact .ite (fun _ => .error _) fun _ => .nil_bind .print fun _ => .error _
  | scheduleDelete i =>
    simp only [runCommand, scheduleDelete]
    cases f.rules.get? "schedule" with
    | none => exact .stop _ _
    | some rules => exact .ite (fun _ => .echo_set a _ rfl) fun _ => .error _
  | wifiScan => exact .echo_read_echo a _ rfl
  | wifiJoin s p k => exact .echo_set_echo a _ rfl
  | hubList => exact .ite (fun _ => .error _) fun _ => .ite (fun _ => .error _) fun _ => .echo
  | hubSupported => exact .ite (fun _ => .error _) fun _ => .ite (fun _ => .error _) fun _ => .echo
  | hubPair t => exact .ite (fun _ => .error _) fun _ => .ite (fun _ => .error _) fun _ => .echo_set_echo a _ rfl
  | hubUnpair i =>
    refine .ite (fun _ => .error _) fun _ => .ite (fun _ => .error _) fun _ => .ite (fun _ => .error _) fun _ => ?_
    exact .bind_nil (.set a _ rfl) fun _ => .nil_bind (.read a _ rfl) fun _ => .ite (fun _ => .error _) fun _ => .echo
  | records => exact .ite (fun _ => .error _) fun _ => .print
  | recordsList => exact .ite (fun _ => .error _) fun _ => .print
  | consumables =>
    simp only [runCommand, consumables]
    cases f.consumables with
    | none => exact .error _
    | some _ => exact .print
  | consumablesReset i =>
    simp only [runCommand, consumablesReset]
    cases f.consumables with
    | none => exact .error _
    | some ids => exact .ite (fun _ => .error _) fun _ => .bind_nil (.set a _ rfl) fun _ => .print
  | feature n v =>
    simp only [runCommand, feature]
    cases n with
    | none => exact .echo
    | some n =>
      by_cases hn : n = ""
      · subst hn
        have : Wanted a f (.feature (some "") v) = none := by
          cases v <;> simp [Wanted]
        rw [this]
        exact .echo
      · have hg : given (some n) = true := by simp [given, hn]
        rw [hg]
        simp only [if_true]
        cases hf : f.features.get? n with
        | none => exact .error _
        | some isAction =>
          cases v with
          | none =>
            cases isAction with
            | true =>
              simp only [Wanted, hf, hn, ne_eq, not_false_eq_true, and_self, if_true]
              exact .echo_set_echo a _ rfl
            | false =>
              simp only [Wanted, hf, Bool.false_eq_true, if_false, Option.some.injEq, and_false]
              exact .echo
          | some v =>
            simp only [Wanted, if_neg hn]
            cases a.literal v with
            | none => exact .stop _ _
            | some j => exact .echo_set_update a _ rfl

/-- A command changes nothing but what it asks for, and that at most once: commands which show something change nothing.
Missing: modifying a preset with a negative index, see `C83_negative_index`. -/
theorem C83_only_partial (a : Answers) (f : Facts) (c : Command) (ho : ¬ Odd f c) :
    changes (perform a f c).2 = [] ∨ ∃ w, Wanted a f c = some w ∧ changes (perform a f c).2 = [w] := by
  obtain ⟨t, h1, h2, _⟩ := does_wanted a f c ho []
  rw [List.nil_append] at h1
  unfold perform
  rw [h1]
  cases hw : Wanted a f c with
  | none =>
    rw [hw] at h2
    exact .inl (List.prefix_nil.1 h2)
  | some w =>
    rw [hw] at h2
    have h3 : changes t <+: [w] := h2
    rcases List.prefix_cons_iff.1 h3 with h | ⟨u, h, h'⟩
    · exact .inl h
    · right
      refine ⟨w, rfl, ?_⟩
      rw [h, List.prefix_nil.1 h']

/-- A command which ends without an exception did the setting it asks for.  Missing: the commands for the time end so when
the device has no time module, see `C83_time_ignored`. -/
theorem C83_done_partial (a : Answers) (f : Facts) (c : Command) (ho : ¬ Odd f c) (w : Call) (hw : Wanted a f c = some w)
    (hok : (perform a f c).1 = .ok ()) : changes (perform a f c).2 = [w] := by
  obtain ⟨t, h1, _, h3⟩ := does_wanted a f c ho []
  rw [List.nil_append] at h1
  unfold perform
  rw [h1, h3 () hok, hw]
  rfl

/-- A command for something the device does not have fails, and calls nothing.  Missing: the commands for the time
(`C83_time_ignored`) and for the logs, which say so at most. -/
theorem C83_unsupported_partial (a : Answers) (f : Facts) (c : Command) (hs : Supported f c = false)
    (ht : ∀ z s, c ≠ .timeSync z s) (ht' : ∀ d z s, c ≠ .timeSet d z s) (hl : c ≠ .logs) :
    Succeeds (perform a f c).1 = false ∧ calls (perform a f c).2 = [] := by
  have herr : ∀ l, calls l = [] → Succeeds (C.error l).1 = false ∧ calls (C.error l).2 = [] := by
    intro l h
    refine ⟨rfl, ?_⟩
    show calls (l ++ [.echo]) = []
    rw [calls_append, h]
    rfl
  cases c with
  | led v =>
    simp only [Supported] at hs
    simp only [perform, runCommand, led, hs]
    exact herr [] rfl
  | updateCredentials u p =>
    simp only [Supported] at hs
    simp only [perform, runCommand, updateCredentials, hs]
    exact herr [] rfl
  | logs => exact absurd rfl hl
  | brightness v t =>
    simp only [Supported] at hs
    simp only [perform, runCommand, brightness, hs]
    exact herr [] rfl
  | temperature v t =>
    simp only [Supported] at hs
    simp only [perform, runCommand, temperature, hs]
    exact herr [] rfl
  | hsv h s v t =>
    simp only [Supported] at hs
    simp only [perform, runCommand, hsv, hs]
    exact herr [] rfl
  | effect e =>
    simp only [perform, runCommand, effect]
    cases he : f.effects with
    | none => exact herr [] rfl
    | some effects =>
      cases e with
      | none =>
        simp only [Supported, he] at hs
        cases hs
      | some e =>
        simp only [Supported, he, Option.getD_some] at hs
        simp only
        rw [if_neg (by simpa using hs)]
        exact ⟨rfl, rfl⟩
  | presetsList =>
    simp only [perform, runCommand, presetsList]
    cases he : f.presets with
    | none => exact herr [] rfl
    | some effects =>
      simp only [Supported, he] at hs
      cases hs
  | presetsModify i b h s t =>
    simp only [perform, runCommand, presetsModify]
    cases he : f.presets with
    | none => exact herr [] rfl
    | some presets =>
      simp only [Supported, he, Option.getD_some, decide_eq_false_iff_not] at hs
      simp only
      rw [if_pos (by omega)]
      exact herr [] rfl
  | turnOnBehavior t l p =>
    simp only [Supported] at hs
    simp only [perform, runCommand, turnOnBehavior, hs]
    exact herr [] rfl
  | timeSync z s => exact absurd rfl (ht z s)
  | timeSet d z s => exact absurd rfl (ht' d z s)
  | energy y m e =>
    simp only [Supported] at hs
    simp only [perform, runCommand, energy, Bind.bind, C.echo, List.nil_append]
    cases he : f.hasEnergy with
    | false => exact herr [.echo] rfl
    | true =>
      rw [he] at hs
      simp only [Bool.not_true, Bool.false_eq_true, if_false]
      rw [if_pos (by
        cases hp : f.periodicStats
        · rw [hp] at hs
          simp only [Bool.true_and, Bool.false_or, Bool.not_eq_false'] at hs
          rw [hs]
          rfl
        · rw [hp] at hs
          cases hs)]
      exact herr [.echo] rfl
  | usage y m e =>
    simp only [Supported] at hs
    simp only [perform, runCommand, usage, Bind.bind, C.echo, List.nil_append, hs]
    exact ⟨rfl, rfl⟩
  | scheduleList t =>
    simp only [Supported] at hs
    simp only [perform, runCommand, scheduleList]
    cases he : f.rules.get? t with
    | none => exact ⟨rfl, rfl⟩
    | some r =>
      rw [he] at hs
      cases hs
  | scheduleDelete i =>
    simp only [Supported] at hs
    simp only [perform, runCommand, scheduleDelete]
    cases he : f.rules.get? "schedule" with
    | none => exact ⟨rfl, rfl⟩
    | some r =>
      rw [he] at hs
      simp only
      rw [if_neg (by simpa using hs)]
      exact herr [] rfl
  | hubList =>
    simp only [Supported] at hs
    simp only [perform, runCommand, hub]
    cases h1 : f.isHub with
    | false => exact herr [] rfl
    | true =>
      rw [h1] at hs
      simp only [Bool.true_and] at hs
      rw [hs]
      exact herr [] rfl
  | hubSupported =>
    simp only [Supported] at hs
    simp only [perform, runCommand, hub]
    cases h1 : f.isHub with
    | false => exact herr [] rfl
    | true =>
      rw [h1] at hs
      simp only [Bool.true_and] at hs
      rw [hs]
      exact herr [] rfl
  | hubPair t =>
    simp only [Supported] at hs
    simp only [perform, runCommand, hub]
    cases h1 : f.isHub with
    | false => exact herr [] rfl
    | true =>
      rw [h1] at hs
      simp only [Bool.true_and] at hs
      rw [hs]
      exact herr [] rfl
  | hubUnpair i =>
    simp only [Supported] at hs
    simp only [perform, runCommand, hub, hubUnpair]
    cases h1 : f.isHub with
    | false => exact herr [] rfl
    | true =>
      cases h2 : f.hasChildSetup with
      | false => exact herr [] rfl
      | true =>
        rw [h1, h2] at hs
        simp only [Bool.true_and] at hs
        simp only [Bool.not_true, Bool.false_eq_true, if_false]
        rw [if_pos (by simpa using hs)]
        exact herr [] rfl
  | records =>
    simp only [Supported] at hs
    simp only [perform, runCommand, records, hs]
    exact herr [] rfl
  | recordsList =>
    simp only [Supported] at hs
    simp only [perform, runCommand, records, hs]
    exact herr [] rfl
  | consumables =>
    simp only [Supported] at hs
    simp only [perform, runCommand, consumables]
    cases he : f.consumables with
    | none => exact herr [] rfl
    | some r =>
      rw [he] at hs
      cases hs
  | consumablesReset i =>
    simp only [Supported] at hs
    simp only [perform, runCommand, consumablesReset]
    cases he : f.consumables with
    | none => exact herr [] rfl
    | some ids =>
      rw [he] at hs
      simp only
      rw [if_pos (by simpa using hs)]
      exact herr [] rfl
  | feature n v =>
    cases n with
    | none => simp [Supported] at hs
    | some n =>
      simp only [Supported, Bool.or_eq_false_iff, decide_eq_false_iff_not] at hs
      simp only [perform, runCommand, feature]
      have hg : given (some n) = true := by simp [given, hs.1]
      rw [hg]
      simp only [if_true]
      cases he : f.features.get? n with
      | none => exact herr [] rfl
      | some x =>
        rw [he] at hs
        cases hs.2
  | _ => simp [Supported] at hs

theorem getTimezone_ok (a : Answers) (f : Facts) (z : String) (s : Bool) (hq : ∀ n, a.confirm n = true) (hz : z ∈ a.zones)
    (hm : f.isIot = true → s = false → a.matching z ≠ []) : ∀ l, ∃ l', getTimezone a f z s l = (.ok (), l') := by
  intro l
  unfold getTimezone
  rw [if_neg (by simpa using hz)]
  by_cases hi : (!s && f.isIot) = true
  · rw [if_pos hi]
    simp only [Bool.and_eq_true, Bool.not_eq_true'] at hi
    rw [if_neg (hm hi.2 hi.1)]
    exact ⟨l ++ [.ask], by simp [C.confirm, hq]⟩
  · rw [if_neg hi]
    exact ⟨l, rfl⟩

theorem setZone_ok (a : Answers) (f : Facts) (z : Option String) (s : Bool) (hq : ∀ n, a.confirm n = true) (hz : GoodZone a f z s) :
    ∀ l, ∃ l', setZone a f z s l = (.ok (), l') := by
  intro l
  rcases hz with rfl | rfl | ⟨n, rfl, h1, h2⟩
  · exact ⟨l, rfl⟩
  · exact ⟨l, rfl⟩
  · simp only [setZone]
    split
    · exact ⟨l, rfl⟩
    · exact getTimezone_ok a f n s hq h1 h2 l

theorem syncZone_ok (a : Answers) (f : Facts) (z : Option String) (s : Bool) (hq : ∀ n, a.confirm n = true) (hz : GoodZone a f z s)
    (ho : ∀ n, z = some n → n ≠ "" → a.localOffset n = true) : ∀ l, ∃ l', syncZone a f z s l = (.ok (), l') := by
  intro l
  rcases hz with rfl | rfl | ⟨n, rfl, h1, h2⟩
  · exact ⟨l, rfl⟩
  · exact ⟨l, rfl⟩
  · simp only [syncZone]
    by_cases hn : n = ""
    · rw [if_pos hn]
      exact ⟨l, rfl⟩
    · rw [if_neg hn]
      obtain ⟨l', hl'⟩ := getTimezone_ok a f n s hq h1 h2 l
      exact ⟨l', by simp [Bind.bind, hl', ho n rfl hn, Pure.pure]⟩

/-- **C83, commands which can be done are.** When the device has what the command is about, the arguments make sense, every call of the library
succeeds and the user agrees, the command succeeds (and did what it was asked for, by `C83_done_partial`).  Missing: presets named by a negative
index or given a temperature, and the list of the schedule, which always fails (`C83_schedule_list`, `C83_preset_temperature`). -/
theorem C83_works_partial (a : Answers) (f : Facts) (c : Command) (hc : ∀ n, a.call n = .ok ()) (hq : ∀ n, a.confirm n = true)
    (hs : Supported f c = true) (hw : Sensible a f c) (ho : ¬ Odd f c) (hl : ∀ t, c ≠ .scheduleList t) :
    Succeeds (perform a f c).1 = true := by
  cases c with
  | scheduleList t => exact absurd rfl (hl t)
  | timeSync z s =>
    simp only [Supported] at hs
    obtain ⟨l', hl'⟩ := syncZone_ok a f z s hq hw.1 hw.2 []
    simp [perform, runCommand, timeSync, hs, Bind.bind, hl', C.echo, C.call, hc, Succeeds, Cli.status]
  | timeSet d z s =>
    simp only [Supported] at hs
    obtain ⟨l', hl'⟩ := setZone_ok a f z s hq hw.1 []
    have hv : a.validDate d = true := hw.2
    simp [perform, runCommand, timeSet, hs, Bind.bind, hl', C.echo, C.call, hc, Succeeds, Cli.status, hv]
  | presetsModify i b h s t =>
    simp only [Odd, not_or, Decidable.not_not] at ho
    obtain ⟨hi, rfl⟩ := ho
    cases hp : f.presets with
    | none =>
      simp only [Supported, hp, Option.getD_none, List.length_nil, decide_eq_true_eq] at hs
      exact absurd hs (by omega)
    | some ps =>
      simp only [Supported, hp, Option.getD_some, decide_eq_true_eq] at hs
      simp only [perform, runCommand, presetsModify, hp]
      rw [if_neg (by omega), if_neg (by
        rintro ⟨rfl, rfl, rfl, _⟩
        simp [Sensible] at hw)]
      have h1 : ∀ l, index ("Not set" :: ps.map (·.1)) (i + 1) l = (.ok (("Not set" :: ps.map (·.1))[(i+1).toNat]'(by simp; omega)), l) := by
        intro l
        simp only [index]
        rw [if_neg (by omega), List.getElem?_eq_getElem (by simp; omega)]
        simp only
        rw [if_neg (by omega)]
        rfl
      have h2 : ∀ l, index (ps.map (·.2)) i l = (.ok ((ps.map (·.2))[i.toNat]'(by simp; omega)), l) := by
        intro l
        simp only [index]
        rw [if_neg (by omega), List.getElem?_eq_getElem (by simp; omega)]
        simp only
        rw [if_neg (by omega)]
        rfl
      simp [Bind.bind, h1, h2, C.echo, C.call, hc, Succeeds, Cli.status]
  | hsv h s v t =>
    simp only [Supported] at hs
    rcases hw with ⟨rfl, rfl, rfl⟩ | ⟨h1, h2⟩
    · simp [perform, runCommand, hsv, hs, C.echo, Succeeds, Cli.status]
    · cases s with
      | none => cases h1
      | some s =>
        cases v with
        | none => cases h2
        | some v => simp [perform, runCommand, hsv, hs, Bind.bind, C.echo, C.call, hc, Succeeds, Cli.status]
  | effect e =>
    cases he : f.effects with
    | none => cases e <;> simp [Supported, he] at hs
    | some es =>
      cases e with
      | none => simp [perform, runCommand, effect, he, C.echo, Succeeds, Cli.status]
      | some e =>
        simp only [Supported, he, Option.getD_some, List.contains_iff_mem] at hs
        simp [perform, runCommand, effect, he, hs, Bind.bind, C.echo, C.call, hc, Succeeds, Cli.status]
  | presetsList =>
    cases he : f.presets with
    | none => simp [Supported, he] at hs
    | some es => simp [perform, runCommand, presetsList, he, C.echo, Succeeds, Cli.status]
  | consumables =>
    cases he : f.consumables with
    | none => simp [Supported, he] at hs
    | some es => simp [perform, runCommand, consumables, he, C.print, Succeeds, Cli.status]
  | consumablesReset i =>
    cases he : f.consumables with
    | none => simp [Supported, he] at hs
    | some es =>
      simp only [Supported, he, Option.getD_some, List.contains_iff_mem] at hs
      simp [perform, runCommand, consumablesReset, he, hs, Bind.bind, C.print, C.call, hc, Succeeds, Cli.status]
  | scheduleDelete i =>
    cases he : f.rules.get? "schedule" with
    | none => simp [Supported, he] at hs
    | some es =>
      simp only [Supported, he, Option.getD_some, List.contains_iff_mem] at hs
      simp [perform, runCommand, scheduleDelete, he, hs, Bind.bind, C.echo, C.call, hc, Succeeds, Cli.status]
  | turnOnBehavior t l p =>
    simp only [Supported] at hs
    simp only [perform, runCommand, turnOnBehavior]
    rw [if_neg (by simp [hs])]
    by_cases hx : t = none ∧ l = false ∧ (p = none ∨ p = some 0)
    · simp only [if_pos hx]
      simp [Bind.bind, C.call, hc, C.echo, Pure.pure, Succeeds, Cli.status]
    · simp only [if_neg hx]
      cases t with
      | none => simp [Bind.bind, C.call, hc, C.echo, Succeeds, Cli.status]
      | some t => by_cases ht : t = "soft" <;> simp [ht, Bind.bind, C.call, hc, C.echo, Succeeds, Cli.status]
  | toggle t => cases ho' : f.isOn <;> simp [perform, runCommand, toggle, ho', turnOn, turnOff, Bind.bind, C.call, hc, C.echo, Succeeds, Cli.status]
  | led v =>
    simp only [Supported] at hs
    cases v <;> simp [perform, runCommand, led, hs, Bind.bind, C.call, hc, C.echo, Succeeds, Cli.status]
  | alias v => cases v <;> simp [perform, runCommand, alias, Bind.bind, C.call, hc, C.echo, Succeeds, Cli.status]
  | brightness v t =>
    simp only [Supported] at hs
    cases v <;> simp [perform, runCommand, brightness, hs, Bind.bind, C.call, hc, C.echo, Succeeds, Cli.status]
  | temperature v t =>
    simp only [Supported] at hs
    cases v <;> simp [perform, runCommand, temperature, hs, Bind.bind, C.call, hc, C.echo, Succeeds, Cli.status]
  | energy y m e =>
    simp only [Supported, Bool.and_eq_true, Bool.or_eq_true] at hs
    simp only [perform, runCommand, energy, Bind.bind, C.echo, hs.1, Bool.not_true, Bool.false_eq_true, if_false]
    rw [if_neg (by
      rcases hs.2 with h | h
      · simp [h]
      · simp only [Bool.not_eq_true'] at h
        simp [h])]
    cases e
    · rcases y with _ | y <;> rcases m with _ | ⟨m1, m2⟩ <;> simp [Succeeds, Cli.status, C.call, hc, Bind.bind, C.echo]
    · simp [Succeeds, Cli.status, C.call, hc, Bind.bind, C.echo]
  | usage y m e =>
    simp only [Supported] at hs
    simp only [perform, runCommand, usage, Bind.bind, C.echo, hs, Bool.not_true, Bool.false_eq_true, if_false]
    cases e
    · rcases y with _ | y <;> rcases m with _ | ⟨m1, m2⟩ <;> simp [Succeeds, Cli.status, C.call, hc, Bind.bind, C.echo]
    · simp [Succeeds, Cli.status, C.call, hc, Bind.bind, C.echo]
  | feature n v =>
    cases n with
    | none => simp [perform, runCommand, feature, given, C.echo, Succeeds, Cli.status]
    | some n =>
      by_cases hn : n = ""
      · simp [perform, runCommand, feature, given, hn, C.echo, Succeeds, Cli.status]
      · have hg : given (some n) = true := by simp [given, hn]
        cases he : f.features.get? n with
        | none => simp [Supported, hn, he] at hs
        | some x =>
          cases v with
          | none => cases x <;> simp [perform, runCommand, feature, hg, he, Bind.bind, C.echo, C.call, hc, Succeeds, Cli.status]
          | some v =>
            simp only [Sensible, hn, false_or] at hw
            cases hj : a.literal v with
            | none => rw [hj] at hw; cases hw
            | some j => simp [perform, runCommand, feature, hg, he, hj, Bind.bind, C.echo, C.call, hc, Succeeds, Cli.status]
  | hubUnpair i =>
    simp only [Supported, Bool.and_eq_true, List.contains_iff_mem] at hs
    have hst : a.stillThere = false := hw
    simp [perform, runCommand, hub, hubUnpair, hs.1.1, hs.1.2, hs.2, hst, Bind.bind, C.echo, C.call, hc, Succeeds, Cli.status]
  | _ =>
    simp [Supported] at hs
    simp_all [perform, runCommand, turnOn, turnOff, reboot, factoryReset, updateCredentials, logs, wifiScan, wifiJoin, hub, hubPair, records, Bind.bind, C.echo, C.print, C.call, C.confirm, Succeeds, Cli.status]

theorem index_cases {α : Type} (xs : List α) (i : Int) :
    (∃ x, ∀ l, index xs i l = (.ok x, l)) ∨ ∀ l, index xs i l = (.error (.failed (.other "IndexError")), l) := by
  unfold index
  generalize (if i < 0 then i + (xs.length : Int) else i) = j
  cases xs[j.toNat]? with
  | none => exact .inr fun _ => rfl
  | some x =>
    by_cases h : j < 0
    · simp only [if_pos h]
      exact .inr fun _ => rfl
    · simp only [if_neg h]
      exact .inl ⟨x, fun _ => rfl⟩

theorem index_log {α : Type} (xs : List α) (i : Int) : ∃ r, ∀ l, index xs i l = (r, l) := by
  rcases index_cases xs i with ⟨x, h⟩ | h
  · exact ⟨_, h⟩
  · exact ⟨_, h⟩

theorem index_error {α : Type} {xs : List α} {i : Int} {e : Stop} (h : ∀ l, index xs i l = (.error e, l)) :
    e = .failed (.other "IndexError") := by
  rcases index_cases xs i with ⟨x, h'⟩ | h'
  · have := (h' []).symm.trans (h [])
    cases this
  · have := (h' []).symm.trans (h [])
    cases this
    rfl

/-- The only change of `presets modify` is the saving of a preset. -/
theorem presetsModify_changes (a : Answers) (f : Facts) (i : Int) (b h s t : Option Int) (x : Call)
    (hx : x ∈ changes (perform a f (.presetsModify i b h s t)).2) : ∃ y : String × Preset, x = .savePreset y.1 y.2 := by
  simp only [perform, runCommand, presetsModify] at hx
  cases hp : f.presets with
  | none =>
    rw [hp] at hx
    simp [C.error, C.echo, C.stop, Bind.bind, changes, calls] at hx
  | some presets =>
    rw [hp] at hx
    simp only at hx
    split at hx
    · simp [C.error, C.echo, C.stop, Bind.bind, changes, calls] at hx
    · split at hx
      · simp [C.error, C.echo, C.stop, Bind.bind, changes, calls] at hx
      · obtain ⟨r1, e1⟩ := index_log ("Not set" :: presets.map (·.1)) (i + 1)
        obtain ⟨r2, e2⟩ := index_log (presets.map (·.2)) i
        cases r1 with
        | error e => simp [Bind.bind, e1, changes, calls] at hx
        | ok name =>
          cases r2 with
          | error e => simp [Bind.bind, e1, e2, changes, calls] at hx
          | ok p =>
            by_cases ht : t.isSome = true
            · simp only [if_pos ht] at hx
              simp [Bind.bind, e1, e2, C.echo, C.stop, changes, calls] at hx
            · simp only [if_neg ht] at hx
              simp only [Bind.bind, e1, e2, C.echo, C.call, changes, calls, List.nil_append, List.append_assoc,
                List.cons_append] at hx
              have hx' := (List.mem_filter.1 hx).1
              exact ⟨(_, _), List.mem_singleton.1 hx'⟩

/-- Resetting a device to the factory settings and replacing its credentials is only done after the user has agreed. -/
theorem C83_confirmed (a : Answers) (f : Facts) (c : Command) (u p : String)
    (hc : .call .factoryReset ∈ (perform a f c).2 ∨ .call (.updateCredentials u p) ∈ (perform a f c).2) :
    (perform a f c).2.head? = some .ask ∧ a.confirm 0 = true ∧ (c = .factoryReset ∨ c = .updateCredentials u p) := by
  have hmem : ∀ l x, .call x ∈ l → Reads x = false → x ∈ changes l := by
    intro l x hx hr
    unfold changes
    rw [List.mem_filter]
    refine ⟨?_, by rw [hr]; rfl⟩
    induction l with
    | nil => simp at hx
    | cons y l ih =>
      rcases List.mem_cons.1 hx with h | h
      · subst h
        simp [calls]
      · cases y <;> simp only [calls]
        · exact ih h
        · exact ih h
        · exact ih h
        · exact List.mem_cons_of_mem _ (ih h)
  have hw : ∃ x, x ∈ changes (perform a f c).2 ∧ (x = .factoryReset ∨ x = .updateCredentials u p) := by
    rcases hc with h | h
    · exact ⟨_, hmem _ _ h rfl, .inl rfl⟩
    · exact ⟨_, hmem _ _ h rfl, .inr rfl⟩
  obtain ⟨x, hx, hxx⟩ := hw
  have hodd : ¬ Odd f c := by
    intro ho
    cases c with
    | presetsModify i b h s t =>
      obtain ⟨y, hy⟩ := presetsModify_changes a f i b h s t x hx
      rcases hxx with h | h
      · rw [h] at hy
        exact nomatch hy
      · rw [h] at hy
        exact nomatch hy
    | timeSync z s =>
      have : f.hasTime = false := ho
      simp [perform, runCommand, timeSync, this, C.echo, changes, calls] at hx
    | timeSet d z s =>
      have : f.hasTime = false := ho
      simp [perform, runCommand, timeSet, this, C.echo, changes, calls] at hx
    | _ => exact ho
  rcases C83_only_partial a f c hodd with h | ⟨w, hw, h⟩
  · rw [h] at hx
    simp at hx
  · rw [h, List.mem_singleton] at hx
    subst hx
    have hcc : c = .factoryReset ∨ c = .updateCredentials u p := by
      rcases hxx with rfl | rfl
      · left
        cases c <;> simp only [Wanted] at hw <;> first | rfl | (repeat' split at hw) <;> simp_all
      · right
        cases c <;> simp only [Wanted] at hw <;> first | (repeat' split at hw) <;> simp_all
    rcases hcc with rfl | rfl
    · simp only [perform, runCommand, factoryReset, Bind.bind, C.confirm, List.length_nil, List.nil_append] at h ⊢
      cases ha : a.confirm 0 with
      | false => simp [ha, changes, calls] at h
      | true => exact ⟨rfl, rfl, by simp⟩
    · simp only [perform, runCommand, updateCredentials] at h ⊢
      cases hs : f.isSmart with
      | false =>
        rw [hs] at h
        simp [C.error, C.echo, C.stop, Bind.bind, changes, calls] at h
      | true =>
        rw [hs, if_neg (fun h => nomatch h)] at h
        rw [if_neg (fun h => nomatch h)]
        simp only [Bind.bind, C.confirm, List.length_nil, List.nil_append] at h ⊢
        cases ha : a.confirm 0 with
        | false => simp [ha, changes, calls] at h
        | true => exact ⟨rfl, rfl, by simp⟩

/-! The commands which do not do what they are for. -/

/-- Listing the rules never succeeds: the tool says that there are none, after having listed them. -/
theorem C83_schedule_list (a : Answers) (f : Facts) (type : String) : Succeeds (perform a f (.scheduleList type)).1 = false := by
  simp only [perform, runCommand, scheduleList]
  cases f.rules.get? type with
  | none => rfl
  | some rules =>
    simp only
    split <;> rfl

/-- The temperature of a preset cannot be modified: the command always fails, and changes nothing. -/
theorem C83_preset_temperature (a : Answers) (f : Facts) (i : Int) (b h s : Option Int) (t : Int) :
    Succeeds (perform a f (.presetsModify i b h s (some t))).1 = false ∧
    changes (perform a f (.presetsModify i b h s (some t))).2 = [] := by
  simp only [perform, runCommand, presetsModify]
  cases f.presets with
  | none => exact ⟨rfl, rfl⟩
  | some presets =>
    simp only
    by_cases h1 : i > (presets.length : Int) - 1
    · rw [if_pos h1]
      exact ⟨rfl, rfl⟩
    · rw [if_neg h1, if_neg (fun h => nomatch h.2.2.2)]
      obtain ⟨r1, e1⟩ := index_log ("Not set" :: presets.map (·.1)) (i + 1)
      obtain ⟨r2, e2⟩ := index_log (presets.map (·.2)) i
      cases r1 with
      | error e =>
        have := index_error e1
        subst this
        simp only [Bind.bind, e1]
        exact ⟨rfl, rfl⟩
      | ok name =>
        cases r2 with
        | error e =>
          have := index_error e2
          subst this
          simp only [Bind.bind, e1, e2]
          exact ⟨rfl, rfl⟩
        | ok p =>
          simp only [Bind.bind, e1, e2]
          exact ⟨rfl, rfl⟩

/-- A negative index is not refused: `-2` overwrites the last preset with the one before it. -/
theorem C83_negative_index (a : Answers) (p q : Preset) (n : Int) :
    changes (perform a { presets := some [("A", p), ("B", q)] } (.presetsModify (-2) (some n) none none none)).2 =
      [.savePreset "B" { p with brightness := change (some n) p.brightness }] := by
  have hc : ∀ o, change none o = o := by
    intro o
    cases o <;> rfl
  simp [perform, runCommand, presetsModify, Bind.bind, index, C.echo, C.call, changes, calls, Reads, hc, Pure.pure]

/-- Setting the time of a device without a time module does nothing, and the exit status is zero. -/
theorem C83_time_ignored (a : Answers) (f : Facts) (h : f.hasTime = false) (d : List Int) (z : Option String) (s : Bool) :
    Succeeds (perform a f (.timeSet d z s)).1 = true ∧ calls (perform a f (.timeSet d z s)).2 = [] := by
  simp [perform, runCommand, timeSet, h, C.echo, calls, Succeeds, Cli.status]

/-- Setting the turn on behaviour to the preset `0` without a type is taken as a question for the current settings; with
another preset the missing type is reported.  Neither makes the exit status nonzero. -/
theorem C83_behavior_ignored (a : Answers) (f : Facts) (h : f.isIotBulb = true) (hc : a.call 0 = .ok ()) (n : Int) :
    Succeeds (perform a f (.turnOnBehavior none false (some n))).1 = true ∧
    changes (perform a f (.turnOnBehavior none false (some n))).2 = [] := by
  have hb : ∀ (x y : C Unit), (if (!f.isIotBulb) = true then x else y) = y := by
    intro x y
    rw [h]
    rfl
  simp only [perform, runCommand, turnOnBehavior]
  rw [hb]
  by_cases hn : True ∧ True ∧ (some n = none ∨ some n = some 0)
  · simp only [if_pos hn]
    simp [Bind.bind, C.call, C.echo, hc, Pure.pure, Succeeds, Cli.status, changes, calls, Reads]
  · simp only [if_neg hn]
    simp [Bind.bind, C.call, C.echo, hc, Succeeds, Cli.status, changes, calls, Reads]

/-- Everything the examples need. -/
def Example.answers : Answers :=
  { call := fun _ => .ok (), confirm := fun _ => true, zones := [], matching := fun _ => [], localOffset := fun _ => true,
    validDate := fun _ => true, literal := fun _ => none, stillThere := false }

example := C83_only_partial Example.answers { hasLed := true } (.led (some true)) (fun h => h)
example := C83_done_partial Example.answers { hasLed := true } (.led (some true)) (fun h => h) (.setLed true) rfl rfl
example := C83_unsupported_partial Example.answers { hasLed := false } (.led (some true)) rfl (fun _ _ h => nomatch h)
  (fun _ _ _ h => nomatch h) (fun h => nomatch h)
example := C83_works_partial Example.answers { hasTime := true } (.timeSet [2024, 1, 1, 0, 0, 0] none false) (fun _ => rfl) (fun _ => rfl) rfl
  ⟨.inl rfl, rfl⟩ (fun h => nomatch h) (fun _ h => nomatch h)
example := C83_confirmed Example.answers {} .factoryReset "" "" (.inl (by decide))
example := C83_time_ignored Example.answers {} rfl [2024, 1, 1, 0, 0, 0] none false
example := C83_behavior_ignored Example.answers { isIotBulb := true } rfl rfl 3

end Kasa.CliCommand
