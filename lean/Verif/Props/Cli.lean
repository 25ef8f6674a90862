import Verif.Lemmas.Cli
/-!
# C80: the command line tool runs the command once, on the device asked for
-/

namespace Kasa.Cli

open Config Spec

theorem spec_given (x : Option String) : Given x ↔ given x = true := (given_iff x).symm

theorem given_of_not {x : Option String} (h : ¬ Given x) : given x = false := by
  rw [spec_given] at h
  simpa using h

theorem errors (o : Options) (w : World) : ∃ t, (error (α := Bool) o) w = (.error (.exit 1), { w with log := w.log ++ t }) ∧
    ∀ e ∈ t, e = .text := by
  unfold error echo
  cases o.json with
  | true => exact ⟨[], by simp [Bind.bind, Pure.pure, stop], by simp⟩
  | false => exact ⟨[.text], by simp [Bind.bind, act, stop], by simp⟩

theorem run_of_checks {env : Surroundings} {o : Options} {s : Stop} {w : World}
    (h : checks env o { log := [], held := none } = (.error s, w)) (hh : w.held = none) :
    run env o = (status (.error s), w.log) := by
  have hc : cli env o { log := [], held := none } = (.error s, w) := by
    unfold cli
    exact bind_error' h
  have hg : group env o { log := [], held := none } = (.error s, w) := by
    unfold group
    exact bind_error' hc
  unfold run
  rw [hg]
  simp only [hh]

/-- Options which contradict each other, or which do not say which device a command is for, are refused: the exit status is
not zero, and nothing is sent and nothing is run. -/
theorem C80_refused (env : Surroundings) (o : Options) (hc : Contradictory o) :
    (run env o).1 ≠ 0 ∧ ∀ e ∈ (run env o).2, ¬ IsAction e := by
  have he : ∀ w, checks env o { log := [], held := none } = (error (α := Bool) o) w → w = { log := [], held := none } →
      (run env o).1 ≠ 0 ∧ ∀ e ∈ (run env o).2, ¬ IsAction e := by
    intro w h hw
    obtain ⟨t, ht, hall⟩ := errors o w
    rw [ht] at h
    rw [run_of_checks h (by rw [hw])]
    refine ⟨by simp [status], ?_⟩
    intro e hm
    rw [hw] at hm
    simp only [List.nil_append] at hm
    rw [hall e hm]
    exact fun h => h
  have hu : checks env o { log := [], held := none } = (.error .usage, { log := [], held := none }) →
      (run env o).1 ≠ 0 ∧ ∀ e ∈ (run env o).2, ¬ IsAction e := by
    intro h
    rw [run_of_checks h rfl]
    exact ⟨by simp [status], fun e hm => by simp at hm⟩
  by_cases h1 : o.target ≠ "255.255.255.255" ∧ given o.host = true
  · refine he _ ?_ rfl
    unfold checks
    rw [if_pos h1]
  · rcases hc with hc | ⟨hd, hc⟩
    · exact absurd ⟨hc.1, (spec_given _).1 hc.2⟩ h1
    by_cases h2 : o.alias.isSome = true ∧ o.host.isSome = true
    · refine hu ?_
      unfold checks
      rw [if_neg h1, if_neg hd, if_pos h2]
      rfl
    by_cases h3 : given o.password ≠ given o.username
    · refine hu ?_
      unfold checks
      rw [if_neg h1, if_neg hd, if_neg h2, if_pos h3]
      rfl
    rcases hc with hc | hc | hc | hc
    · exfalso
      apply h2
      constructor
      · cases ha : o.alias with
        | none => exact absurd ha hc.1
        | some _ => rfl
      · cases ha : o.host with
        | none => exact absurd ha hc.2
        | some _ => rfl
    · exfalso
      apply h3
      rw [(spec_given _).1 hc.1, given_of_not hc.2]
      decide
    · exfalso
      apply h3
      rw [(spec_given _).1 hc.1, given_of_not hc.2]
      decide
    · refine he _ ?_ rfl
      unfold checks
      rw [if_neg h1, if_neg hd, if_neg h2, if_neg h3, if_pos hc.2, if_pos ((spec_given _).1 hc.1)]

/-- Every event of a run is one of those allowed before the command, the command, the document or the closing of a
device. -/
theorem run_events (env : Surroundings) (o : Options) (e : Event) (he : e ∈ (run env o).2) :
    Allowed env o e ∨ (e = .document ∧ o.json = true) ∨ (∃ h, e = .disconnect h ∧ IsHandle env o h) ∨
    (∃ name x, e = .command name x ∧ o.subcommand = some name ∧ ∀ h, x = some h → IsHandle env o h) := by
  have hcl : ∀ x, (∀ h, x = some h → IsHandle env o h) → e ∈ closing x → ∃ h, e = .disconnect h ∧ IsHandle env o h := by
    intro x hx hm
    cases x with
    | none => simp [closing] at hm
    | some h => exact ⟨h, by simpa [closing] using hm, hx h rfl⟩
  rcases run_cases env o with ⟨s, w, h1, h2, h3, h4, _⟩ | ⟨x, before, h1, h2, h3, _, h4⟩
  · rw [h4] at he
    rcases List.mem_append.1 he with he | he
    · exact .inl (h1 e he)
    · exact .inr (.inr (.inl (hcl _ (fun h hh => (h2 h hh).1) he)))
  · rcases h4 with ⟨h5, h6⟩ | ⟨h5, r, hr, h6, _⟩
    · rw [h6] at he
      rcases List.mem_append.1 he with he | he
      · rcases List.mem_append.1 he with he | he
        · exact .inl (h1 e he)
        · cases hj : o.json with
          | false => simp [hj] at he
          | true => exact .inr (.inl ⟨by simpa [hj] using he, rfl⟩)
      · exact .inr (.inr (.inl (hcl _ (fun h hh => (h2 h hh).1) he)))
    · rw [h6] at he
      rcases List.mem_append.1 he with he | he
      · exact .inl (h1 e he)
      · rcases List.mem_cons.1 he with he | he
        · refine .inr (.inr (.inr ⟨_, x, he, ?_, fun h hh => (h2 h hh).1⟩))
          obtain ⟨s, hs, _⟩ := (given_iff _).1 h5
          rw [hs]
          rfl
        · rcases List.mem_append.1 he with he | he
          · cases hj : o.json with
            | false => simp [hj] at he
            | true =>
              refine .inr (.inl ⟨?_, rfl⟩)
              rw [hj] at he
              split at he
              · simpa using he
              · simp at he
          · exact .inr (.inr (.inl (hcl _ (fun h hh => (h2 h hh).1) he)))

theorem run_device {env : Surroundings} {o : Options} {e : Event} (he : e ∈ (run env o).2) {h : Handle}
    (hd : device e = some h) : IsHandle env o h := by
  rcases run_events env o e he with ha | ⟨rfl, _⟩ | ⟨d, rfl, hh⟩ | ⟨name, x, rfl, _, hh⟩
  · cases e with
    | connect d => cases hd; exact ha
    | update d => cases hd; exact ha
    | state d => cases hd; exact ha
    | disconnect d => cases hd; exact ha
    | command _ _ => exact ha.elim
    | text => cases hd
    | document => cases hd
    | single _ _ _ => cases hd
    | all _ _ => cases hd
    | find _ _ _ => cases hd
  · cases hd
  · cases hd
    exact hh
  · exact hh h hd

/-- With `--host x` every device the run deals with is the one at `x`, and no other device is looked for. -/
theorem C80_host (env : Surroundings) (o : Options) (x : String) (ho : o.host = some x) (hx : x ≠ "") (e : Event)
    (he : e ∈ (run env o).2) :
    (∀ h, device e = some h → h.host = some x) ∧ (∀ y p c, e = .single y p c → y = x) ∧ (∀ t c, e ≠ .all t c) ∧
    ∀ a t c, e ≠ .find a t c := by
  have hg : given o.host = true := (given_iff _).2 ⟨x, ho, hx⟩
  refine ⟨?_, ?_, ?_, ?_⟩
  · intro h hd
    rcases run_device he hd with ⟨_, rfl⟩ | ⟨_, p, _, rfl⟩ | ⟨hh, _⟩ | ⟨_, rfl⟩
    · exact ho
    · exact ho
    · rw [ho] at hh
      exact absurd hh.2.2 (fun h => nomatch h)
    · simp only [discoveredHandle, ho, Option.getD_some]
  · rintro y p c rfl
    rcases run_events env o _ he with ha | ⟨h, _⟩ | ⟨d, h, _⟩ | ⟨n, d, h, _⟩
    · have := ha.1
      rw [ho] at this
      cases this
      rfl
    all_goals cases h
  · rintro t c rfl
    rcases run_events env o _ he with ha | ⟨h, _⟩ | ⟨d, h, _⟩ | ⟨n, d, h, _⟩
    · have := ha.2.2.1
      rw [hg] at this
      cases this
    all_goals cases h
  · rintro a t c rfl
    rcases run_events env o _ he with ha | ⟨h, _⟩ | ⟨d, h, _⟩ | ⟨n, d, h, _⟩
    · have := ha.2.1
      rw [ho] at this
      cases this
    all_goals cases h

/-- With `--alias a`, and without options which say how to connect, every device the run deals with was found by the search
for `a`, and nothing else is looked for.  Missing: with `--type` or `--encrypt-type` the alias is ignored, see
`C80_alias_ignored`. -/
theorem C80_alias_partial (env : Surroundings) (o : Options) (a : String) (ha : o.alias = some a) (hn : a ≠ "")
    (hau : Automatic o) (e : Event) (he : e ∈ (run env o).2) :
    (∀ h, device e = some h → h.source = .named a ∧ ∃ n, env.find n = .ok h.host) ∧
    (∀ b t c, e = .find b t c → b = a ∧ t = o.target) ∧ (∀ t c, e ≠ .all t c) := by
  have hg : given o.alias = true := (given_iff _).2 ⟨a, ha, hn⟩
  refine ⟨?_, ?_, ?_⟩
  · intro h hd
    rcases run_device he hd with ⟨hh, _⟩ | ⟨hh, _⟩ | ⟨_, n, host, hf, rfl⟩ | ⟨hh, _⟩
    · rw [hau.1] at hh
      exact absurd hh.1 (fun h => nomatch h)
    · rcases hh.2 with h' | h'
      · rw [hau.1] at h'
        exact absurd h' (fun h => nomatch h)
      · exact absurd ((spec_given _).2 h') hau.2
    · exact ⟨by simp [namedHandle, ha], n, hf⟩
    · rw [hg] at hh
      exact absurd hh.2.1 (fun h => nomatch h)
  · rintro b t c rfl
    rcases run_events env o _ he with h | ⟨h, _⟩ | ⟨d, h, _⟩ | ⟨n, d, h, _⟩
    · have := h.1
      rw [ha] at this
      cases this
      exact ⟨rfl, h.2.2.2.1⟩
    all_goals cases h
  · rintro t c rfl
    rcases run_events env o _ he with h | ⟨h, _⟩ | ⟨d, h, _⟩ | ⟨n, d, h, _⟩
    · have := h.2.2.2
      rw [hg] at this
      cases this
    all_goals cases h

theorem not_command {env : Surroundings} {o : Options} {e : Event} (h : Allowed env o e) : ¬ IsCommand e := by
  cases e <;> first | exact fun h => h | exact h.elim

/-- The command given is run at most once, and no other.  The device it is run on has been updated before (except for the
raw commands), and closing that device is the last thing the run does, whatever the command did. -/
theorem C80_command (env : Surroundings) (o : Options) (name : String) (d : Option Handle)
    (hm : .command name d ∈ (run env o).2) :
    o.subcommand = some name ∧ ∃ before after, Ran (run env o).2 name d before after ∧
      ∀ h, d = some h → (name ≠ "raw-command" → name ≠ "command" → Ready env o h before) ∧
        (run env o).2.getLast? = some (.disconnect h) := by
  have hcl : ∀ x, ∀ e ∈ closing x, ¬ IsCommand e := by
    intro x e he
    cases x with
    | none => simp [closing] at he
    | some h =>
      simp only [closing, List.mem_singleton] at he
      rw [he]
      exact fun h => h
  have hdoc : ∀ b : Bool, ∀ e ∈ (if b then [Event.document] else []), ¬ IsCommand e := by
    intro b e he
    cases b with
    | false => simp at he
    | true =>
      simp only [if_true, List.mem_singleton] at he
      rw [he]
      exact fun h => h
  have hnot : ∀ l : List Event, (∀ e ∈ l, ¬ IsCommand e) → .command name d ∉ l := fun l hl h => hl _ h trivial
  rcases run_cases env o with ⟨s, w, h1, h2, h3, h4, _⟩ | ⟨x, before, h1, h2, h3, _, h4⟩
  · exfalso
    rw [h4] at hm
    refine hnot _ ?_ hm
    intro e he
    rcases List.mem_append.1 he with he | he
    · exact not_command (h1 e he)
    · exact hcl _ e he
  · rcases h4 with ⟨h5, h6⟩ | ⟨h5, r, hr, h6, _⟩
    · exfalso
      rw [h6] at hm
      refine hnot _ ?_ hm
      intro e he
      rcases List.mem_append.1 he with he | he
      · rcases List.mem_append.1 he with he | he
        · exact not_command (h1 e he)
        · exact hdoc _ e he
      · exact hcl _ e he
    · obtain ⟨sub, hs, hne⟩ := (given_iff _).1 h5
      rw [h6] at hm
      have hb : .command name d ∉ before := hnot _ fun e he => not_command (h1 e he)
      have ha : ∀ e ∈ (if r.isOk && o.json then [Event.document] else []) ++ closing x, ¬ IsCommand e := by
        intro e he
        rcases List.mem_append.1 he with he | he
        · exact hdoc _ e he
        · exact hcl _ e he
      have heq : Event.command name d = .command (o.subcommand.getD "") x := by
        rcases List.mem_append.1 hm with hm | hm
        · exact absurd hm hb
        · rcases List.mem_cons.1 hm with hm | hm
          · exact hm
          · exact absurd hm (hnot _ ha)
      rw [hs] at heq
      simp only [Option.getD_some, Event.command.injEq] at heq
      obtain ⟨rfl, rfl⟩ := heq
      refine ⟨hs, before, _, ⟨by rw [h6, hs]; rfl, fun e he => not_command (h1 e he), ha⟩, ?_⟩
      intro h hd
      refine ⟨fun n1 n2 => (h2 h hd).2 ?_, ?_⟩
      · rw [hs]
        simp [skipsUpdate, n1, n2]
      · rw [h6, hd]
        simp only [closing]
        rw [show before ++ Event.command (o.subcommand.getD "") (some h) ::
          ((if (r.isOk && o.json) = true then [Event.document] else []) ++ [.disconnect h]) =
          (before ++ Event.command (o.subcommand.getD "") (some h) ::
          (if (r.isOk && o.json) = true then [Event.document] else [])) ++ [.disconnect h] from by simp]
        exact List.getLast?_concat

/-- A run with a command which ends with the exit status zero ran the command, and the command ended well or the user
declined a question.  Missing: declining a question is not distinguished from success (`C80_abort`), and a run without a
command may end with zero without a device having been found (`C80_alias_unknown`). -/
theorem C80_status_partial (env : Surroundings) (o : Options) (name : String) (hs : o.subcommand = some name)
    (hn : name ≠ "") (h0 : (run env o).1 = 0) :
    ∃ n d, (run env o).2[n]? = some (.command name d) ∧ (Fine (env.command n) ∨ env.command n = .error .abort) := by
  have hg : given o.subcommand = true := (given_iff _).2 ⟨name, hs, hn⟩
  rcases run_cases env o with ⟨s, w, _, _, h3, _, h5⟩ | ⟨x, before, _, _, _, _, h4⟩
  · exfalso
    exact h5 ((cli_nonzero env o (by rw [hs]; exact fun h => nomatch h) _ trivial).2 s w h3) h0
  · rcases h4 with ⟨h5, _⟩ | ⟨_, r, hr, h6, h7, _⟩
    · rw [hg] at h5
      cases h5
    · refine ⟨before.length, x, ?_, ?_⟩
      · rw [h6, hs]
        simp
      · have := h7 h0
        rw [hr]
        cases r with
        | ok u => exact .inl trivial
        | error e =>
          cases e with
          | usage => simp [status] at this
          | exit c => exact .inl this
          | abort => exact .inr rfl
          | failed e => simp [status] at this

/-- A command which fails makes the exit status nonzero. -/
theorem C80_failure (env : Surroundings) (o : Options) (n : Nat) (name : String) (d : Option Handle)
    (hm : (run env o).2[n]? = some (.command name d)) (hn : name ≠ "") (hf : ¬ Fine (env.command n))
    (ha : env.command n ≠ .error .abort) : (run env o).1 ≠ 0 := by
  intro h0
  obtain ⟨hs, before, after, hr, _⟩ := C80_command env o name d (List.mem_of_getElem? hm)
  obtain ⟨m, d', hm', hc⟩ := C80_status_partial env o name hs hn h0
  have huniq : ∀ k x, (run env o).2[k]? = some (.command name x) → k = before.length := by
    intro k x hk
    rw [hr.split] at hk
    rcases Nat.lt_trichotomy k before.length with h | h | h
    · rw [List.getElem?_append_left h] at hk
      exact absurd trivial (hr.first _ (List.mem_of_getElem? hk))
    · exact h
    · rw [List.getElem?_append_right (Nat.le_of_lt h)] at hk
      obtain ⟨j, hj⟩ : ∃ j, k - before.length = j + 1 := ⟨k - before.length - 1, by omega⟩
      rw [hj, List.getElem?_cons_succ] at hk
      exact absurd trivial (hr.last _ (List.mem_of_getElem? hk))
  rw [huniq n d hm] at hf ha
  rw [huniq m d' hm'] at hc
  rcases hc with h | h
  · exact hf h
  · exact ha h

theorem credentials_spec (o : Options) : Spec.Credentials o (credentials o) := by
  unfold credentials Spec.Credentials
  cases hu : o.username with
  | none =>
    left
    rintro ⟨s, h, _⟩
    cases h
  | some u =>
    cases hp : o.password with
    | none =>
      right
      rintro ⟨s, h, _⟩
      cases h
    | some p =>
      simp only
      by_cases h : u ≠ "" ∧ p ≠ ""
      · rw [if_pos h]
        exact ⟨rfl, rfl⟩
      · rw [if_neg h]
        simp only
        by_cases h1 : u = ""
        · left
          rintro ⟨s, hs, hne⟩
          cases hs
          exact hne h1
        · right
          rintro ⟨s, hs, hne⟩
          cases hs
          exact h ⟨h1, hne⟩

/-- The devices and the discoveries of a run get the credentials given, nothing else.  Missing: the devices of a legacy
`--type` get none, see `C80_credentials_dropped`; and the hash of the credentials is only used with `--type smart` and the
like, see `C80_hash_dropped`. -/
theorem C80_credentials_partial (env : Surroundings) (o : Options) (e : Event) (he : e ∈ (run env o).2) :
    (∀ h, device e = some h → (∀ c, h.source ≠ .legacy c) → Spec.Credentials o h.credentials) ∧
    (∀ y p c, e = .single y p c → Spec.Credentials o c) ∧ (∀ t c, e = .all t c → Spec.Credentials o c) ∧
    ∀ a t c, e = .find a t c → Spec.Credentials o c := by
  have hc := credentials_spec o
  refine ⟨?_, ?_, ?_, ?_⟩
  · intro h hd hl
    rcases run_device he hd with ⟨_, rfl⟩ | ⟨_, p, _, rfl⟩ | ⟨_, n, host, _, rfl⟩ | ⟨_, rfl⟩
    · exact absurd rfl (hl _)
    · exact hc
    · exact hc
    · exact hc
  · rintro y p c rfl
    rcases run_events env o _ he with h | ⟨h, _⟩ | ⟨d, h, _⟩ | ⟨n, d, h, _⟩
    · rw [h.2.2.2]
      exact hc
    all_goals cases h
  · rintro t c rfl
    rcases run_events env o _ he with h | ⟨h, _⟩ | ⟨d, h, _⟩ | ⟨n, d, h, _⟩
    · rw [h.2.1]
      exact hc
    all_goals cases h
  · rintro a t c rfl
    rcases run_events env o _ he with h | ⟨h, _⟩ | ⟨d, h, _⟩ | ⟨n, d, h, _⟩
    · rw [h.2.2.2.2]
      exact hc
    all_goals cases h

theorem family_value {x : String} {f : Family} (h : Family.ofJson (.str x) = .ok f) : f.value = x := by
  unfold Family.ofJson at h
  split at h
  · rename_i g hg
    cases h
    have := List.find?_some hg
    simp only [decide_eq_true_eq, Json.str.injEq] at this
    exact this.symm
  · cases h

theorem encryption_value {x : String} {f : Encryption} (h : Encryption.ofJson (.str x) = .ok f) : f.value = x := by
  unfold Encryption.ofJson at h
  split at h
  · rename_i g hg
    cases h
    have := List.find?_some hg
    simp only [decide_eq_true_eq, Json.str.injEq] at this
    exact this.symm
  · cases h

/-- The devices of a run are what the options say they are. -/
theorem C80_settings (env : Surroundings) (o : Options) (e : Event) (he : e ∈ (run env o).2) (h : Handle)
    (hd : device e = some h) : Settings o h := by
  rcases run_device he hd with ⟨ht, rfl⟩ | ⟨_, p, hp, rfl⟩ | ⟨_, n, host, _, rfl⟩ | ⟨_, rfl⟩
  · refine ⟨fun _ => ⟨rfl, rfl⟩, ?_, fun _ h => (nomatch h), fun _ h => (nomatch h), fun _ h => (nomatch h)⟩
    intro c hc
    cases hc
    obtain ⟨t, ht⟩ := Option.isSome_iff_exists.1 ht.1
    refine ⟨t, ht, ?_⟩
    rw [ht]
    simp only [classes, List.map_cons, List.map_nil, List.mem_cons, List.not_mem_nil, or_false]
    rintro (rfl | rfl | rfl | rfl | rfl | rfl) <;> simp [legacyClass]
  · have key : ∃ f e, Family.ofJson (.str (if o.type = some "camera" then "SMART.IPCAMERA" else o.family)) = .ok f ∧
        Encryption.ofJson (.str (if o.type = some "camera" then "AES" else
          if given o.encryptType then o.encryptType.getD "" else "KLAP")) = .ok e ∧
        p = { family := f, encryption := e, loginVersion := some (if o.type = some "camera" then 2 else o.loginVersion),
              https := decide (o.type = some "camera") || o.https, httpPort := none } := by
      simp only [params] at hp
      cases hf : Family.ofJson (.str (if o.type = some "camera" then "SMART.IPCAMERA" else o.family)) with
      | error x => rw [hf] at hp; cases hp
      | ok f =>
        rw [hf] at hp
        cases hen : Encryption.ofJson (.str (if o.type = some "camera" then "AES" else
          if given o.encryptType then o.encryptType.getD "" else "KLAP")) with
        | error x => exfalso; simp only [Bind.bind, Except.bind, hen] at hp; cases hp
        | ok e =>
          simp only [Bind.bind, Except.bind, hen] at hp
          cases hp
          exact ⟨f, e, rfl, rfl, rfl⟩
    obtain ⟨f, e, hf, hen, rfl⟩ := key
    have hf := family_value hf
    have hen := encryption_value hen
    refine ⟨fun _ => ⟨rfl, rfl⟩, fun _ h => (nomatch h), fun _ _ => rfl, ?_, ?_⟩
    · rintro _ h hc
      cases h
      simp only [hc, if_true] at hf hen ⊢
      exact ⟨hf, hen, by simp, by simp⟩
    · rintro _ h hc
      cases h
      simp only [hc, if_false] at hf hen ⊢
      refine ⟨hf, by simp, by simp, ?_⟩
      by_cases hg : given o.encryptType = true
      · rw [if_pos hg] at hen
        obtain ⟨x, hx, hne⟩ := (given_iff _).1 hg
        rw [hx] at hen
        exact .inl ⟨x, hx, hne, hen⟩
      · rw [if_neg hg] at hen
        exact .inr ⟨fun h => hg ((given_iff _).2 h), hen⟩
  · exact ⟨fun h => absurd rfl (h _), fun _ h => (nomatch h), fun _ h => (nomatch h), fun _ h => (nomatch h), fun _ h => (nomatch h)⟩
  · exact ⟨fun _ => ⟨rfl, rfl⟩, fun _ h => (nomatch h), fun _ h => (nomatch h), fun _ h => (nomatch h), fun _ h => (nomatch h)⟩

/-- Surroundings in which everything goes well. -/
def Example.fine : Surroundings :=
  { single := fun _ => .ok true, all := fun _ => .ok true, find := fun _ => .ok (some "10.0.0.5"), connect := fun _ => .ok (),
    update := fun _ => .ok (), state := fun _ => .ok (), command := fun _ => .ok (), disconnect := fun _ => .ok () }

/-- `kasa --host 10.0.0.2 --username u --password p on`. -/
def Example.on : Options :=
  { host := some "10.0.0.2", username := some "u", password := some "p", subcommand := some "on" }

/-- The device of `Example.on`. -/
def Example.device : Handle :=
  { host := some "10.0.0.2", source := .discovered, port := none, timeout := some 5, credentials := some ⟨"u", "p"⟩,
    hash := none }

/-- A run in full: discovery, update, the command, closing. -/
theorem C80_typical : run Example.fine Example.on =
    (0, [.text, .single "10.0.0.2" none (some ⟨"u", "p"⟩), .update Example.device, .command "on" (some Example.device),
      .disconnect Example.device]) := by
  decide +kernel

/-- `--alias` is ignored when `--type` is given: the command is run on a device without a host. -/
theorem C80_alias_ignored : ∃ (o : Options) (h : Handle), o.alias = some "lamp" ∧ h.host = none ∧
    .command "on" (some h) ∈ (run Example.fine o).2 ∧ ∀ a t c, .find a t c ∉ (run Example.fine o).2 := by
  refine ⟨{ alias := some "lamp", type := some "plug", subcommand := some "on" },
    { host := none, source := .legacy "IotPlug", port := none, timeout := some 5, credentials := none, hash := none },
    rfl, rfl, by decide +kernel, ?_⟩
  intro a t c hm
  rw [show run Example.fine { alias := some "lamp", type := some "plug", subcommand := some "on" } =
    (0, [.update { host := none, source := .legacy "IotPlug", port := none, timeout := some 5, credentials := none, hash := none },
      .command "on" (some { host := none, source := .legacy "IotPlug", port := none, timeout := some 5, credentials := none, hash := none }),
      .disconnect { host := none, source := .legacy "IotPlug", port := none, timeout := some 5, credentials := none, hash := none }])
    from by decide +kernel] at hm
  simp at hm

/-- When no device has the alias, the command is run nevertheless, without a device; and without a command the run ends
with the exit status zero. -/
theorem C80_alias_unknown : ∃ (env : Surroundings) (o : Options), o.alias = some "lamp" ∧
    (∀ n, env.find n = .ok none) ∧ .command "on" none ∈ (run env { o with subcommand := some "on" }).2 ∧
    (run env o).1 = 0 ∧ ∀ e ∈ (run env o).2, ∀ h, device e ≠ some h := by
  refine ⟨{ Example.fine with find := fun _ => .ok none }, { alias := some "lamp" }, rfl, fun _ => rfl, by decide +kernel,
    by decide +kernel, ?_⟩
  intro e he h
  rw [show run { Example.fine with find := fun _ => .ok none } { alias := some "lamp" } =
    (0, [.text, .find "lamp" "255.255.255.255" none, .text]) from by decide +kernel] at he
  simp only [List.mem_cons, List.not_mem_nil, or_false] at he
  rcases he with rfl | rfl | rfl <;> exact fun h => nomatch h

/-- Declining a question of the command gives the exit status zero, as success does. -/
theorem C80_abort : ∃ env : Surroundings, (∀ n, env.command n = .error .abort) ∧ (run env Example.on).1 = 0 :=
  ⟨{ Example.fine with command := fun _ => .error .abort }, fun _ => rfl, by decide +kernel⟩

/-- A legacy `--type` drops the credentials given. -/
theorem C80_credentials_dropped : ∃ (o : Options) (h : Handle), o.username = some "u" ∧ o.password = some "p" ∧
    h.credentials = none ∧ .command "on" (some h) ∈ (run Example.fine o).2 :=
  ⟨{ Example.on with type := some "plug" },
   { host := some "10.0.0.2", source := .legacy "IotPlug", port := none, timeout := some 5, credentials := none,
     hash := none }, rfl, rfl, rfl, by decide +kernel⟩

/-- The hash of the credentials is not used when the device is discovered. -/
theorem C80_hash_dropped : ∃ (o : Options) (h : Handle), o.hash = some "x" ∧ o.username = none ∧
    h.hash = none ∧ h.credentials = none ∧ .command "on" (some h) ∈ (run Example.fine o).2 :=
  ⟨{ host := some "10.0.0.2", hash := some "x", subcommand := some "on" },
   { host := some "10.0.0.2", source := .discovered, port := none, timeout := some 5, credentials := none, hash := none },
   rfl, rfl, rfl, rfl, by decide +kernel⟩

/-- A device whose first update fails is not closed. -/
theorem C80_update_leak : ∃ env : Surroundings, .update Example.device ∈ (run env Example.on).2 ∧
    .disconnect Example.device ∉ (run env Example.on).2 :=
  ⟨{ Example.fine with update := fun _ => .error .timeout }, by decide +kernel, by decide +kernel⟩

example := C80_refused Example.fine { Example.on with alias := some "lamp" }
  (.inr ⟨by decide, .inl ⟨by decide, by decide⟩⟩)
example := C80_host Example.fine Example.on "10.0.0.2" rfl (by decide) (.update Example.device) (by decide +kernel)
example := C80_alias_partial Example.fine { alias := some "lamp", subcommand := some "on" } "lamp" rfl (by decide)
  ⟨rfl, fun ⟨_, h, _⟩ => nomatch h⟩ (.find "lamp" "255.255.255.255" none) (by decide +kernel)
example := C80_command Example.fine Example.on "on" (some Example.device) (by decide +kernel)
example := C80_status_partial Example.fine Example.on "on" rfl (by decide) (by decide +kernel)
example := C80_failure { Example.fine with command := fun _ => .error (.failed .timeout) } Example.on 3 "on"
  (some Example.device) (by decide +kernel) (by decide) (fun h => h) (fun h => nomatch h)
example := C80_settings Example.fine Example.on (.update Example.device) (by decide +kernel) Example.device rfl
example := C80_credentials_partial Example.fine Example.on (.update Example.device) (by decide +kernel)

end Kasa.Cli
