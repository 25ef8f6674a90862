import Verif.Spec.Rules
import Verif.Props.IotDevice
/-!
# C100: rules of legacy devices
-/

namespace Kasa.Rules
open RulesSpec Ops

section
variable (toInt : String → Option Int)

theorem asInts_nums : ∀ ns : List Int, asInts toInt (ns.map .num) = .ok ns
  | [] => rfl
  | n :: ns => by
    rw [List.map_cons, asInts, asInts_nums ns]
    rfl

theorem asAction_code (x : Action) : asAction (actionCode x) = .ok x := by cases x <;> rfl
theorem asTimeOption_code (x : TimeOption) : asTimeOption (timeCode x) = .ok x := by cases x <;> rfl

theorem optional_some {α : Type} {code : α → Json} {kvs : List (String × Json)} {key : String} {x : Option α} {f : Json → Except Exc α}
    (h : Maybe code kvs key x) (hf : ∀ a, f (code a) = .ok a) (hn : ∀ a, code a ≠ .null) : optional kvs key f = .ok x := by
  unfold optional
  cases x with
  | none =>
    rcases (show Dict.get? kvs key = none ∨ Dict.get? kvs key = some .null from h) with h | h <;> rw [h]
  | some a =>
    rw [show Dict.get? kvs key = some (code a) from h]
    have hfa := hf a
    cases hc : code a with
    | null => exact absurd hc (hn a)
    | _ => simp only [← hc, hfa, bind, Except.bind]; rfl

theorem fromDict_describes {v : Json} {r : Rule} {kvs : List (String × Json)} (h : Describes v r kvs) : fromDict toInt v = .ok r := by
  obtain ⟨rfl, h1, h2, h3, h4, h5, h6, h7, h8, h9, h10, h11, h12⟩ := h
  unfold fromDict
  simp only [item, h1, h2, show Dict.get? kvs "enable" = _ from h3, h4, show Dict.get? kvs "repeat" = _ from h5, asInt, asList, asInts_nums,
    optional_some h6 asAction_code (by intro a; cases a <;> simp [actionCode]), optional_some h7 asTimeOption_code (by intro a; cases a <;> simp [timeCode]),
    optional_some (f := asInt toInt) h8 (fun _ => rfl) (by simp), optional_some h9 asAction_code (by intro a; cases a <;> simp [actionCode]),
    optional_some h10 asTimeOption_code (by intro a; cases a <;> simp [timeCode]), optional_some (f := asInt toInt) h11 (fun _ => rfl) (by simp),
    optional_some (f := asDict) h12 (fun _ => rfl) (by simp), bind, Except.bind, pure, Except.pure]

theorem fromDicts_describe {vs : List Json} {rs : List Rule} (h : AllDescribe vs rs) : fromDicts toInt vs = .ok rs := by
  induction h with
  | nil => rfl
  | cons hd _ ih =>
    unfold fromDicts
    rw [fromDict_describes toInt hd, ih]
    rfl

theorem readRules_updated {module : String} {d : Device} {lu : List (String × Json)} (h : Updated module d lu) :
    readRules toInt module lu = fromDicts toInt d.stored := by
  obtain ⟨m, g, h1, h2, h3⟩ := h
  unfold readRules data
  simp only [h1, item, h2, h3, bind, Except.bind]

/-- **C100, shown, in part.** If every rule the device holds is one this version can read, `rules` shows exactly the rules the device holds, in its
order, each with all its fields.  (What is missing: one rule that cannot be read hides all.) -/
theorem C100_shown_partial (module : String) (d : Device) (lu : List (String × Json)) (hu : Updated module d lu) (rs : List Rule)
    (h : AllDescribe d.stored rs) : rules toInt module lu = .ok rs := by
  unfold rules
  rw [readRules_updated toInt hu, fromDicts_describe toInt h]

theorem fromDicts_bad {v : Json} (hv : ∃ e, fromDict toInt v = .error e) : ∀ vs : List Json, v ∈ vs → ∃ e, fromDicts toInt vs = .error e
  | [], h => by cases h
  | x :: xs, h => by
    unfold fromDicts
    rcases List.mem_cons.1 h with rfl | h
    · obtain ⟨e, he⟩ := hv
      exact ⟨e, by rw [he]; rfl⟩
    · obtain ⟨e, he⟩ := fromDicts_bad hv xs h
      cases hx : fromDict toInt x with
      | error e' => exact ⟨e', rfl⟩
      | ok r => exact ⟨e, by rw [he]; rfl⟩

/-- Reading rules is never interrupted. -/
theorem fromDict_calm (v : Json) (e : Exc) (h : fromDict toInt v = .error e) : e.isException = true := by
  have key : ∀ {α : Type} (x : Except Exc α), (∀ e, x = .error e → e.isException = true) → ∀ {β : Type} (f : α → Except Exc β),
      (∀ a e, f a = .error e → e.isException = true) → ∀ e, (x >>= f) = .error e → e.isException = true := by
    intro α x hx β f hf e he
    cases x with
    | error e' => cases he; exact hx _ rfl
    | ok a => exact hf a e he
  have hitem : ∀ (v : Json) k e, item v k = .error e → e.isException = true := by
    intro v k e h
    unfold item at h
    split at h
    · split at h
      · cases h
      · cases h; rfl
    · cases h; rfl
  have hint : ∀ v e, asInt toInt v = .error e → e.isException = true := by
    intro v e h
    unfold asInt at h
    split at h
    · cases h
    · cases h
    · split at h
      · cases h
      · cases h; rfl
    · cases h; rfl
  have hints : ∀ vs e, asInts toInt vs = .error e → e.isException = true := by
    intro vs
    induction vs with
    | nil => intro e h; cases h
    | cons v vs ih =>
      intro e h
      unfold asInts at h
      exact key _ (hint v) _ (fun n => key _ ih _ fun ns e h => by cases h) e h
  have hlist : ∀ v e, asList toInt v = .error e → e.isException = true := by
    intro v e h
    unfold asList at h
    split at h
    · exact hints _ e h
    · cases h; rfl
  have hact : ∀ v e, asAction v = .error e → e.isException = true := by
    intro v e h
    unfold asAction at h
    split at h <;> cases h
    rfl
  have htime : ∀ v e, asTimeOption v = .error e → e.isException = true := by
    intro v e h
    unfold asTimeOption at h
    split at h <;> cases h
    rfl
  have hdict : ∀ v e, asDict v = .error e → e.isException = true := by
    intro v e h
    unfold asDict at h
    split at h <;> cases h
    rfl
  have hopt : ∀ {α : Type} (kvs : List (String × Json)) key' (f : Json → Except Exc α), (∀ v e, f v = .error e → e.isException = true) →
      ∀ e, optional kvs key' f = .error e → e.isException = true := by
    intro α kvs key' f hf e h
    unfold optional at h
    split at h
    · cases h
    · cases h
    · exact key _ (hf _) _ (fun a e h => by cases h) e h
  unfold fromDict at h
  split at h
  · refine key _ (hitem _ _) _ (fun _ => key _ (hitem _ _) _ fun _ => key _ (hitem _ _) _ fun _ => key _ (hint _) _ fun _ => key _ (hitem _ _) _
      fun _ => key _ (hlist _) _ fun _ => key _ (hitem _ _) _ fun _ => key _ (hint _) _ fun _ => key _ (hopt _ _ _ hact) _ fun _ =>
      key _ (hopt _ _ _ htime) _ fun _ => key _ (hopt _ _ _ hint) _ fun _ => key _ (hopt _ _ _ hact) _ fun _ => key _ (hopt _ _ _ htime) _ fun _ =>
      key _ (hopt _ _ _ hint) _ fun _ => key _ (hopt _ _ _ hdict) _ fun _ e h => by cases h) e h
  · cases h; rfl

theorem fromDicts_calm : ∀ (vs : List Json) (e : Exc), fromDicts toInt vs = .error e → e.isException = true
  | [], e, h => by cases h
  | v :: vs, e, h => by
    unfold fromDicts at h
    cases hv : fromDict toInt v with
    | error e' => rw [hv] at h; cases h; exact fromDict_calm toInt v _ hv
    | ok r =>
      rw [hv] at h
      cases hs : fromDicts toInt vs with
      | error e' => rw [hs] at h; cases h; exact fromDicts_calm vs _ hs
      | ok rs => rw [hs] at h; cases h

/-- **C100, shown, the counterexample.** A single rule that cannot be read, for instance one with an action this version does not know, hides all
rules of the device. -/
theorem C100_shown_counterexample (module : String) (d : Device) (lu : List (String × Json)) (hu : Updated module d lu) (v : Json) (hv : v ∈ d.stored)
    (kvs : List (String × Json)) (hk : v = .obj kvs) (n : Int) (ha : Dict.get? kvs "sact" = some (.num n)) (hn : n < -1 ∨ 2 < n) :
    rules toInt module lu = .ok [] := by
  have hbad : ∃ e, fromDict toInt v = .error e := by
    cases hf : fromDict toInt v with
    | error e => exact ⟨e, rfl⟩
    | ok r =>
      exfalso
      rw [hk] at hf
      unfold fromDict at hf
      have hact : asAction (.num n) = .error (.other "ValueError") := by
        unfold asAction asCode
        simp only
        split
        · rename_i h; cases h; omega
        · rename_i h; cases h; omega
        · rename_i h; cases h; omega
        · rename_i h; cases h; omega
        · rfl
      have hopt : optional kvs "sact" asAction = .error (.other "ValueError") := by
        unfold optional
        simp only [ha, hact, bind, Except.bind]
      simp only [hopt, bind, Except.bind] at hf
      repeat' split at hf
      all_goals cases hf
  obtain ⟨e, he⟩ := fromDicts_bad toInt hbad d.stored hv
  unfold rules
  rw [readRules_updated toInt hu, he]
  exact if_pos (fromDicts_calm toInt _ e he)

/-- **C100, never raises.** `rules` gives a list whatever the device reported, also before the first update. -/
theorem C100_total (module : String) (lu : List (String × Json)) : ∃ rs, rules toInt module lu = .ok rs := by
  unfold rules
  cases h : readRules toInt module lu with
  | ok rs => exact ⟨rs, rfl⟩
  | error e =>
    refine ⟨[], if_pos ?_⟩
    have hitem : ∀ (v : Json) k e, item v k = .error e → e.isException = true := by
      intro v k e h
      unfold item at h
      split at h
      · split at h
        · cases h
        · cases h; rfl
      · cases h; rfl
    unfold readRules at h
    cases hd : data module lu with
    | error e' =>
      rw [hd] at h; cases h
      unfold data at hd
      split at hd <;> cases hd
      rfl
    | ok d =>
      rw [hd] at h
      simp only [bind, Except.bind] at h
      cases hg : item d "get_rules" with
      | error e' => rw [hg] at h; cases h; exact hitem _ _ _ hg
      | ok g =>
        rw [hg] at h
        simp only at h
        cases hl : item g "rule_list" with
        | error e' => rw [hl] at h; cases h; exact hitem _ _ _ hl
        | ok l =>
          rw [hl] at h
          simp only at h
          split at h
          · exact fromDicts_calm toInt _ e h
          · cases h; rfl

/-! ## Commands -/

/-- What a command is meant to do to the rules a user sees. -/
def Command.effect : Command → List Rule → List Rule
  | .setEnabled _, rs => rs
  | .delete r, rs => rs.filter fun x => decide (x.id ≠ r.id)
  | .deleteAll, _ => []

/-- The request a command sends. -/
def Command.request (module : String) : Command → Json
  | .setEnabled b => .obj [(module, .obj [("set_overall_enable", .obj [("enable", .bool b)])])]
  | .delete r => .obj [(module, .obj [("delete_rule", .obj [("id", r.id)])])]
  | .deleteAll => .obj [(module, .obj [("delete_all_rules", .obj [])])]

theorem perform_request (send : Json → Except Exc Json) (module : String) (c : Command) :
    ∃ cmd arg, perform send module c = Iot.queryHelper send module cmd arg none ∧ Iot.createRequest module cmd arg none = c.request module := by
  cases c <;> exact ⟨_, _, rfl, rfl⟩

theorem describe_filter {vs : List Json} {rs : List Rule} (h : AllDescribe vs rs) (i : Json) :
    AllDescribe (vs.filter fun v => decide (idOf v ≠ some i)) (rs.filter fun x => decide (x.id ≠ i)) := by
  induction h with
  | nil => exact .nil
  | @cons v r kvs vs rs hd _ ih =>
    have hid : idOf v = some r.id := by
      rw [hd.dict]
      exact hd.id
    rw [List.filter_cons, List.filter_cons]
    by_cases hi : r.id = i
    · rw [if_neg (by simp [hid, hi]), if_neg (by simp [hi])]
      exact ih
    · rw [if_pos (by simp [hid, hi]), if_pos (by simp [hi])]
      exact .cons hd ih

/-- **C100, commands.** A command to a device that obeys succeeds, and after the next update `rules` shows the rules without the deleted one (and all
others, in their order), none at all after all were deleted, and the same after the service was switched, which is then in the wanted state. -/
theorem C100_commands (module : String) (d : Device) (rs : List Rule) (h : AllDescribe d.stored rs) (c : Command) (lu : List (String × Json))
    (hu : Updated module (receives module d (c.request module)) lu) :
    perform (acknowledges module) module c = .ok (.obj []) ∧ rules toInt module lu = .ok (c.effect rs) ∧
    (receives module d (c.request module)).enabled = (match c with | .setEnabled b => b | _ => d.enabled) := by
  refine ⟨?_, ?_, ?_⟩
  · cases c <;>
      simp [perform, Iot.queryHelper, Iot.createRequest, acknowledges, commandOf, Iot.unwrap, Iot.need, contains, item, Iot.refuseError, Iot.nonZero, Iot.dropCode,
        Dict.has, Dict.get?, Dict.erase, bind, Except.bind, pure, Except.pure]
  · refine C100_shown_partial toInt module _ lu hu _ ?_
    cases c with
    | setEnabled b =>
      simp only [receives, commandOf, Command.request, if_true, after, Command.effect]
      exact h
    | delete r =>
      simp only [receives, commandOf, Command.request, if_true, after, Command.effect]
      exact describe_filter h r.id
    | deleteAll =>
      simp only [receives, commandOf, Command.request, if_true, after, Command.effect]
      exact .nil
  · cases c <;> simp [receives, commandOf, Command.request, after, Dict.get?]

/-- **C100, what is sent.** A command sends its one request and no other: its outcome depends on the answer to that alone.  If that is an exception,
the command fails. -/
theorem C100_request (send : Json → Except Exc Json) (module : String) (c : Command) :
    (∀ send', send' (c.request module) = send (c.request module) → perform send' module c = perform send module c) ∧
    (∀ e, send (c.request module) = .error e → perform send module c = .error (if e.isException then .kasa else e)) := by
  refine ⟨fun send' hs => ?_, fun e he => ?_⟩
  · cases c <;>
      simp only [perform, Iot.queryHelper, Iot.createRequest, Option.getD, Command.request] at hs ⊢ <;> rw [hs]
  · obtain ⟨cmd, arg, hp, hr⟩ := perform_request send module c
    rw [hp, Iot.queryHelper, hr, he]

/-- **C100, the command line.** `schedule delete --id` deletes the rule with this id if `rules` shows one, and otherwise sends nothing and fails. -/
theorem C100_cli_delete (send : Json → Except Exc Json) (d : Device) (lu : List (String × Json)) (hu : Updated "schedule" d lu) (rs : List Rule)
    (h : AllDescribe d.stored rs) (id : String) :
    ((∃ r ∈ rs, r.id = .str id) → ∃ r ∈ rs, r.id = .str id ∧ cliDelete toInt send lu id = (perform send "schedule" (.delete r)).map some) ∧
    ((∀ r ∈ rs, r.id ≠ .str id) → ∀ send', cliDelete toInt send' lu id = .ok none) := by
  have hr := C100_shown_partial toInt "schedule" d lu hu rs h
  refine ⟨fun hx => ?_, fun hx send' => ?_⟩
  · cases hf : rs.find? fun r => decide (r.id = .str id) with
    | none =>
      obtain ⟨r, hm, hi⟩ := hx
      have := List.find?_eq_none.1 hf r hm
      simp [hi] at this
    | some r =>
      refine ⟨r, List.mem_of_find?_eq_some hf, by simpa using List.find?_some hf, ?_⟩
      unfold cliDelete
      rw [hr]
      simp only [bind, Except.bind, hf]
      cases perform send "schedule" (.delete r) <;> rfl
  · unfold cliDelete
    rw [hr]
    have hf : (rs.find? fun r => decide (r.id = .str id)) = none := List.find?_eq_none.2 fun r hm => by simpa using hx r hm
    simp only [bind, Except.bind, hf]
    rfl
end

/-! ## The hypotheses can be met -/

def sampleRule : Rule := ⟨.str "A1", .str "name", 1, [0, 1], 1, some .turnOn, some .atSunset, some 0, none, none, none, none⟩

def sampleDict : List (String × Json) :=
  [("id", .str "A1"), ("name", .str "name"), ("enable", .num 1), ("wday", .arr [.num 0, .num 1]), ("repeat", .num 1), ("sact", .num 1),
   ("stime_opt", .num 2), ("smin", .num 0), ("eact", .null)]

def sampleDevice : Device := ⟨true, [.obj sampleDict]⟩

def sampleUpdate (d : Device) : List (String × Json) := [("schedule", .obj [("get_rules", .obj [("rule_list", .arr d.stored)])])]

theorem sample_described : AllDescribe sampleDevice.stored [sampleRule] :=
  .cons ⟨rfl, rfl, rfl, rfl, rfl, rfl, rfl, rfl, rfl, .inr rfl, .inl rfl, .inl rfl, .inl rfl⟩ .nil

theorem sample_updated (d : Device) : Updated "schedule" d (sampleUpdate d) := ⟨_, _, rfl, rfl, rfl⟩

example := C100_shown_partial (fun _ => none) "schedule" sampleDevice _ (sample_updated _) _ sample_described
example := C100_commands (fun _ => none) "schedule" sampleDevice _ sample_described (.delete sampleRule) _ (sample_updated _)
example : rules (fun _ => none) "schedule" (sampleUpdate ⟨true, [.obj sampleDict, .obj (Dict.set sampleDict "sact" (.num 7))]⟩) = .ok [] :=
  C100_shown_counterexample (fun _ => none) "schedule" _ _ (sample_updated _) (.obj (Dict.set sampleDict "sact" (.num 7))) (by simp) _ rfl 7
    (by decide +kernel) (.inr (by decide))
example := C100_cli_delete (fun _ => none) (acknowledges "schedule") sampleDevice _ (sample_updated _) _ sample_described "A1"

end Kasa.Rules
