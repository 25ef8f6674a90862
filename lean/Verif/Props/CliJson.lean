import Verif.Spec.CliJson
import Verif.Lemmas.Cli
import Verif.Props.Cli
/-!
# C84: with `--json` the standard output is one JSON document
-/

namespace Kasa.CliCommand

open Cli (Stop Event Options Surroundings run)
open Spec C

/-- A computation writes nothing with `--json`. -/
def Quiet {α : Type} (m : C α) : Prop := ∀ l, written (m l).2 = written l

namespace Quiet

variable {α β : Type}

theorem written_append (l l' : List Act) : written (l ++ l') = written l ++ written l' := by
  induction l with
  | nil => rfl
  | cons e l ih => cases e <;> simp [written, ih]

theorem pure' (x : α) : Quiet (pure x : C α) := fun _ => rfl

theorem stop (e : Stop) : Quiet (C.stop e : C α) := fun _ => rfl

theorem bind {m : C α} {f : α → C β} (hm : Quiet m) (hf : ∀ x, Quiet (f x)) : Quiet (m >>= f) := by
  intro l
  have := hm l
  simp only [Bind.bind]
  cases hr : m l with
  | mk r l' =>
    rw [hr] at this
    cases r with
    | error e => exact this
    | ok x => exact (hf x l').trans this

theorem echo : Quiet C.echo := fun l => by simp [C.echo, written_append, written]

theorem call (a : Answers) (c : Call) : Quiet (C.call a c) := fun l => by simp [C.call, written_append, written]

theorem error : Quiet C.error := bind echo fun _ => stop _

theorem ite {p : Prop} [Decidable p] {m n : C α} (hm : p → Quiet m) (hn : ¬p → Quiet n) : Quiet (if p then m else n) := by
  by_cases h : p
  · rw [if_pos h]
    exact hm h
  · rw [if_neg h]
    exact hn h

theorem index (xs : List α) (i : Int) : Quiet (C.index xs i) := by
  unfold C.index
  split
  · exact ite (fun _ => stop _) (fun _ => pure' _)
  · exact stop _

end Quiet

open Quiet in
theorem quiet_command (a : Answers) (f : Facts) (c : Command) (h : Talks f c = false) : Quiet (runCommand a f c) := by
  have ec : ∀ x, Quiet (do C.echo; C.call a x) := fun x => .bind .echo fun _ => .call a x
  have ece : ∀ x, Quiet (do C.echo; C.call a x; C.echo) := fun x => .bind .echo fun _ => .bind (.call a x) fun _ => .echo
  have hub : ∀ m, Quiet m → Quiet (hub f m) := by
    intro m hm
    exact ite (fun _ => .error) fun _ => ite (fun _ => .error) fun _ => hm
  have zone : ∀ z skip, (!skip && f.isIot) = false → Quiet (getTimezone a f z skip) := by
    intro z skip hz
    unfold getTimezone
    rw [hz]
    exact ite (fun _ => .error) fun _ => .pure' _
  cases c with
  | state => exact .echo
  | sysinfo => exact .echo
  | on t => exact ec _
  | off t => exact ec _
  | toggle t => exact ite (fun _ => ec _) (fun _ => ec _)
  | led v =>
    refine ite (fun _ => .error) fun _ => ?_
    cases v with
    | none => exact .echo
    | some v => exact ec _
  | alias v =>
    cases v with
    | none => exact .echo
    | some v => exact .bind .echo fun _ => .bind (.call _ _) fun _ => .bind (.call _ _) fun _ => .echo
  | reboot d => exact ec _
  | factoryReset => exact nomatch h
  | updateCredentials u p => exact nomatch h
  | logs => exact nomatch h
  | brightness v t =>
    refine ite (fun _ => .error) fun _ => ?_
    cases v with
    | none => exact .echo
    | some v => exact ec _
  | temperature v t =>
    refine ite (fun _ => .error) fun _ => ?_
    cases v with
    | none => exact .echo
    | some v => exact ec _
  | effect e =>
    simp only [runCommand, effect]
    cases f.effects with
    | none => exact .error
    | some effects =>
      cases e with
      | none => exact .echo
      | some e => exact ite (fun _ => ec _) fun _ => .stop _
  | hsv h s v t =>
    refine ite (fun _ => .error) fun _ => ite (fun _ => .echo) fun _ => ?_
    cases s with
    | none => exact .stop _
    | some s =>
      cases v with
      | none => exact .stop _
      | some v => exact ec _
  | presetsList =>
    simp only [runCommand, presetsList]
    cases f.presets with
    | none => exact .error
    | some _ => exact .echo
  | presetsModify i b h s t =>
    simp only [runCommand, presetsModify]
    cases f.presets with
    | none => exact .error
    | some presets =>
      exact ite (fun _ => .error) fun _ => ite (fun _ => .error) fun _ =>
        .bind (.index _ _) fun _ => .bind (.index _ _) fun _ => .bind .echo fun _ =>
        ite (fun _ => .stop _) fun _ => ec _
  | turnOnBehavior t l p =>
    refine ite (fun _ => .error) fun _ => .bind (.call _ _) fun _ => .bind .echo fun _ => ite (fun _ => .pure' _) fun _ => ?_
    cases t with
    | none => exact .echo
    | some t => exact .bind .echo fun _ => ite (fun _ => .call _ _) fun _ => .call _ _
  | timeGet => exact .echo
  | timeSync z skip =>
    refine ite (fun _ => .echo) fun _ => .bind ?_ fun _ => .bind .echo fun _ => .bind (.call _ _) fun _ =>
      .bind (.call _ _) fun _ => .echo
    cases z with
    | none => exact .pure' _
    | some z =>
      have hz : (!skip && f.isIot) = false := by simpa [Talks] using h
      exact ite (fun _ => .pure' _) fun _ => .bind (zone z skip hz) fun _ => ite (fun _ => .error) fun _ => .pure' _
  | timeSet d z skip =>
    refine ite (fun _ => .echo) fun _ => .bind ?_ fun _ => .bind .echo fun _ =>
      ite (fun _ => .bind (.call _ _) fun _ => .bind (.call _ _) fun _ => .echo) fun _ => .stop _
    cases z with
    | none => exact .pure' _
    | some z =>
      have hz : (!skip && f.isIot) = false := by simpa [Talks] using h
      exact ite (fun _ => .pure' _) fun _ => zone z skip hz
  | energy y m e =>
    refine .bind .echo fun _ => ite (fun _ => .error) fun _ => ite (fun _ => .error) fun _ => ite (fun _ => ec _) fun _ => ?_
    cases y with
    | some y => exact ece _
    | none =>
      cases m with
      | some m => exact ece _
      | none => exact .echo
  | usage y m e =>
    refine .bind .echo fun _ => ite (fun _ => .stop _) fun _ => ite (fun _ => ec _) fun _ => ?_
    cases y with
    | some y => exact ece _
    | none =>
      cases m with
      | some m => exact ece _
      | none => exact .echo
  | scheduleList t => exact nomatch h
  | scheduleDelete i =>
    simp only [runCommand, scheduleDelete]
    cases f.rules.get? "schedule" with
    | none => exact .stop _
    | some rules => exact ite (fun _ => ec _) fun _ => .error
  | wifiScan => exact ece _
  | wifiJoin s p k => exact ece _
  | hubList => exact hub _ .echo
  | hubSupported => exact hub _ .echo
  | hubPair t => exact hub _ (ece _)
  | hubUnpair i =>
    exact hub _ (ite (fun _ => .error) fun _ => .bind (.call _ _) fun _ => .bind (.call _ _) fun _ =>
      ite (fun _ => .error) fun _ => .echo)
  | records => exact nomatch h
  | recordsList => exact nomatch h
  | consumables => exact nomatch h
  | consumablesReset i => exact nomatch h
  | feature n v =>
    simp only [runCommand, feature]
    split
    · exact .echo
    · split
      · exact .error
      · cases v with
        | none => exact ite (fun _ => ece _) fun _ => .echo
        | some v =>
          simp only
          split
          · exact .stop _
          · exact .bind .echo fun _ => .bind (.call _ _) fun _ => .bind (.call _ _) fun _ => .echo

theorem stdout_append (t : List Output) (l l' : List Event) : stdout t (l ++ l') = stdout t l ++ stdout t l' := by
  induction l with
  | nil => rfl
  | cons e l ih => cases e <;> simp [stdout, ih]

theorem stdout_allowed {env : Surroundings} {o : Options} (hj : o.json = true) (t : List Output) (l : List Event)
    (h : ∀ e ∈ l, Cli.Allowed env o e) : stdout t l = [] := by
  induction l with
  | nil => rfl
  | cons e l ih =>
    have ih := ih fun x hx => h x (List.mem_cons_of_mem _ hx)
    have he := h e List.mem_cons_self
    cases e with
    | text => simp [Cli.Allowed, hj] at he
    | document => exact absurd he (fun h => h)
    | command _ _ => exact absurd he (fun h => h)
    | _ => exact ih

theorem stdout_closing (t : List Output) (x : Option Cli.Handle) : stdout t (Cli.closing x) = [] := by
  cases x <;> rfl

/-- With `--json` the tool itself writes at most one document and no text, and the document comes after anything the command
wrote; without `--json` it never writes a document. -/
theorem C84_tool (env : Surroundings) (o : Options) (t : List Output) :
    (o.json = true → ∃ c d, stdout t (run env o).2 = c ++ d ∧ (c = [] ∨ c = t) ∧ (d = [] ∨ d = [.document])) ∧
    (o.json = false → Event.document ∉ (run env o).2) := by
  constructor
  · intro hj
    rcases Cli.run_cases env o with ⟨s, w, h1, _, _, h4, _⟩ | ⟨x, before, h1, _, _, _, h5⟩
    · refine ⟨[], [], ?_, .inl rfl, .inl rfl⟩
      rw [h4, stdout_append, stdout_allowed hj t _ h1, stdout_closing]
    · rcases h5 with ⟨_, h6⟩ | ⟨_, r, _, h6, _⟩
      · refine ⟨[], [.document], ?_, .inl rfl, .inr rfl⟩
        rw [h6, stdout_append, stdout_append, stdout_allowed hj t _ h1, stdout_closing, hj]
        rfl
      · rw [h6, stdout_append, stdout_allowed hj t _ h1, hj]
        cases r with
        | ok u =>
          refine ⟨t, [.document], ?_, .inr rfl, .inr rfl⟩
          simp [stdout, Except.isOk, Except.toBool, stdout_closing]
        | error e =>
          refine ⟨t, [], ?_, .inr rfl, .inl rfl⟩
          simp [stdout, Except.isOk, Except.toBool, stdout_closing]
  · intro hj hm
    rcases Cli.run_events env o _ hm with h | ⟨_, h⟩ | ⟨_, h, _⟩ | ⟨_, _, h, _⟩
    · exact h
    · rw [hj] at h
      exact nomatch h
    · exact nomatch h
    · exact nomatch h

/-- A run with `--json` whose command ended normally writes one document, and nothing else.  Missing: the commands which
write directly or ask (`C84_prints`, `C84_asks`). -/
theorem C84_document_partial (env : Surroundings) (o : Options) (hj : o.json = true) (a : Answers) (f : Facts) (c : Command)
    (n : Nat) (name : String) (d : Option Cli.Handle) (hm : (run env o).2[n]? = some (.command name d))
    (hc : env.command n = (perform a f c).1) (hok : (perform a f c).1 = .ok ()) (ht : Talks f c = false) :
    stdout (written (perform a f c).2) (run env o).2 = [.document] := by
  have hq : written (perform a f c).2 = [] := quiet_command a f c ht []
  rw [hq]
  have hmem := List.mem_of_getElem? hm
  rcases Cli.run_cases env o with ⟨s, w, h1, _, _, h4, _⟩ | ⟨x, before, h1, _, _, _, h5⟩
  · rw [h4] at hmem
    rcases List.mem_append.1 hmem with h | h
    · exact absurd (h1 _ h) (fun h => h)
    · cases hw : w.held <;> simp [hw, Cli.closing] at h
  · have hb : Event.command name d ∉ before := fun h => h1 _ h
    have hcl : Event.command name d ∉ Cli.closing x := by cases x <;> simp [Cli.closing]
    rcases h5 with ⟨_, h6⟩ | ⟨_, r, hr, h6, _⟩
    · rw [h6, hj] at hmem
      simp [hb, hcl] at hmem
    · have hnb : n = before.length := by
        rw [h6] at hm
        rcases Nat.lt_trichotomy n before.length with h | h | h
        · rw [List.getElem?_append_left h] at hm
          exact absurd (List.mem_of_getElem? hm) hb
        · exact h
        · rw [List.getElem?_append_right (by omega)] at hm
          obtain ⟨k, hk⟩ : ∃ k, n - before.length = k + 1 := ⟨n - before.length - 1, by omega⟩
          rw [hk, List.getElem?_cons_succ] at hm
          have := List.mem_of_getElem? hm
          rcases List.mem_append.1 this with h | h
          · split at h <;> simp at h
          · exact absurd h hcl
      rw [hnb, hr] at hc
      rw [hok] at hc
      rw [h6, stdout_append, stdout_allowed hj _ _ h1, hc, hj]
      simp [stdout, Except.isOk, Except.toBool, stdout_closing]

/-- A command which fails writes nothing with `--json`, not even an error message. -/
theorem C84_silent (env : Surroundings) (o : Options) (hj : o.json = true) (a : Answers) (f : Facts) (c : Command)
    (n : Nat) (name : String) (d : Option Cli.Handle) (hm : (run env o).2[n]? = some (.command name d))
    (hc : ∀ k, env.command k = (perform a f c).1) (hok : (perform a f c).1 ≠ .ok ()) (ht : Talks f c = false) :
    stdout (written (perform a f c).2) (run env o).2 = [] := by
  have hq : written (perform a f c).2 = [] := quiet_command a f c ht []
  rw [hq]
  have hmem := List.mem_of_getElem? hm
  rcases Cli.run_cases env o with ⟨s, w, h1, _, _, h4, _⟩ | ⟨x, before, h1, _, _, _, h5⟩
  · rw [h4, stdout_append, stdout_allowed hj _ _ h1, stdout_closing]
    rfl
  · have hb : Event.command name d ∉ before := fun h => h1 _ h
    have hcl : Event.command name d ∉ Cli.closing x := by cases x <;> simp [Cli.closing]
    rcases h5 with ⟨_, h6⟩ | ⟨_, r, hr, h6, _⟩
    · rw [h6, hj] at hmem
      simp [hb, hcl] at hmem
    · rw [hc] at hr
      rw [h6, stdout_append, stdout_allowed hj _ _ h1]
      cases r with
      | ok u => exact absurd hr hok
      | error e => simp [stdout, Except.isOk, Except.toBool, stdout_closing]

/-- The cleaning records, the consumables and the logs are written as text before the document. -/
theorem C84_prints (a : Answers) (f : Facts) :
    (f.hasRecords = true → jsonOutput (perform a f .records) = [.text, .document]) ∧
    (f.consumables ≠ none → jsonOutput (perform a f .consumables) = [.text, .document]) ∧
    (f.hasLogs = true → a.call 0 = .ok () → jsonOutput (perform a f .logs) = [.text, .document]) := by
  refine ⟨?_, ?_, ?_⟩
  · intro h
    simp [perform, runCommand, records, h, C.print, jsonOutput]
  · intro h
    simp only [perform, runCommand, consumables]
    cases hc : f.consumables with
    | none => exact absurd hc h
    | some x => rfl
  · intro h hc
    simp [perform, runCommand, logs, h, C.print, C.call, Bind.bind, hc, jsonOutput]

/-- The question of `factory-reset` is written before the document; when it is declined, there is no document, although the
exit status is zero. -/
theorem C84_asks (a : Answers) (f : Facts) :
    (a.confirm 0 = true → a.call 1 = .ok () → jsonOutput (perform a f .factoryReset) = [.text, .document]) ∧
    (a.confirm 0 = false → jsonOutput (perform a f .factoryReset) = [.text] ∧
      Succeeds (perform a f .factoryReset).1 = true) := by
  constructor
  · intro h hc
    simp [perform, runCommand, factoryReset, C.confirm, h, C.call, Bind.bind, hc, jsonOutput]
  · intro h
    simp [perform, runCommand, factoryReset, C.confirm, h, Bind.bind, jsonOutput, Succeeds, Cli.status]

/-- The output of a command by itself, and its document. -/
theorem C84_output (a : Answers) (f : Facts) (c : Command) :
    jsonOutput (perform a f c) = written (perform a f c).2 ++
      (if (perform a f c).1.isOk then [.document] else []) := by
  unfold jsonOutput
  congr 1
  · generalize (perform a f c).2 = l
    induction l with
    | nil => rfl
    | cons e l ih => cases e <;> simp [written, ih]
  · cases (perform a f c).1 <;> rfl

/-! ## Examples -/

def Example.json : Options := { Cli.Example.on with json := true }

def Example.calm : Answers :=
  { call := fun _ => .ok (), confirm := fun _ => true, zones := [], matching := fun _ => [], localOffset := fun _ => true,
    validDate := fun _ => true, literal := fun _ => none, stillThere := false }

example := C84_document_partial Cli.Example.fine Example.json rfl Example.calm {} (.on none) 2 "on"
  (some Cli.Example.device) (by decide +kernel) rfl rfl rfl

example := C84_silent { Cli.Example.fine with command := fun _ => .error (.failed .timeout) } Example.json rfl
  { Example.calm with call := fun _ => .error .timeout } {} (.on none) 2 "on" (some Cli.Example.device) (by decide +kernel)
  (fun _ => rfl) (fun h => nomatch h) rfl

end Kasa.CliCommand
