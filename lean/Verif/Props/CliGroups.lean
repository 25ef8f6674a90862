import Verif.Spec.CliGroups
import Verif.Props.IotDevice
/-!
# C103: the commands of the tool, raw commands, and what is printed
-/

namespace Kasa.CliGroups
open CliGroupsSpec IotSpec

/-! ## Tags -/

theorem lower_iff (c : Char) : lower c = true ↔ 'a' ≤ c ∧ c ≤ 'z' := by simp [lower]

theorem dropWhile_letters {letters : List Char} (h : ∀ c ∈ letters, 'a' ≤ c ∧ c ≤ 'z') (r : List Char) :
    (letters ++ ']' :: r).dropWhile lower = ']' :: r := by
  induction letters with
  | nil => rfl
  | cons c cs ih =>
    rw [List.cons_append, List.dropWhile_cons, if_pos ((lower_iff c).mpr (h c (.head _)))]
    exact ih fun x hx => h x (.tail _ hx)

theorem afterLetters_some {letters : List Char} (hn : letters ≠ []) (h : ∀ c ∈ letters, 'a' ≤ c ∧ c ≤ 'z') (r : List Char) :
    afterLetters (letters ++ ']' :: r) = some r := by
  cases letters with
  | nil => exact absurd rfl hn
  | cons c cs =>
    unfold afterLetters
    simp only [List.cons_append]
    simp only [dropWhile_letters fun x hx => h x (.tail _ hx), if_pos ((lower_iff c).mpr (h c (.head _)))]

theorem takeWhile_lower (l : List Char) : ∀ c ∈ l.takeWhile lower, 'a' ≤ c ∧ c ≤ 'z' := by
  induction l with
  | nil => intro c h; cases h
  | cons x xs ih =>
    intro c h
    rw [List.takeWhile_cons] at h
    split at h
    · rename_i hx
      cases h with
      | head => exact (lower_iff _).mp hx
      | tail _ h => exact ih c h
    · cases h

theorem afterLetters_split {cs r : List Char} (h : afterLetters cs = some r) :
    ∃ letters, letters ≠ [] ∧ (∀ c ∈ letters, 'a' ≤ c ∧ c ≤ 'z') ∧ cs = letters ++ ']' :: r := by
  unfold afterLetters at h
  split at h
  · cases h
  · rename_i c rest
    split at h
    · rename_i hc
      split at h
      · rename_i x heq
        cases h
        refine ⟨c :: rest.takeWhile lower, by simp, ?_, ?_⟩
        · intro y hy
          cases hy with
          | head => exact (lower_iff _).mp hc
          | tail _ hy => exact takeWhile_lower rest y hy
        · rw [List.cons_append, ← heq, List.takeWhile_append_dropWhile]
      · cases h
    · cases h

theorem afterTag_iff (s r : List Char) : afterTag s = some r ↔ ∃ t, Tag t ∧ s = t ++ r := by
  constructor
  · intro h
    unfold afterTag at h
    split at h
    · obtain ⟨letters, h1, h2, h3⟩ := afterLetters_split h
      exact ⟨_, ⟨['/'], letters, .inr rfl, h1, h2, rfl⟩, by simp [h3]⟩
    · obtain ⟨letters, h1, h2, h3⟩ := afterLetters_split h
      exact ⟨_, ⟨[], letters, .inl rfl, h1, h2, rfl⟩, by simp [h3]⟩
    · cases h
  · rintro ⟨t, ⟨slash, letters, hs, h1, h2, rfl⟩, rfl⟩
    rcases hs with rfl | rfl
    · cases letters with
      | nil => exact absurd rfl h1
      | cons c cs =>
        have hc : c ≠ '/' := fun e => absurd (e ▸ (h2 c (.head _)).1) (by decide)
        have := afterLetters_some h1 h2 r
        simp only [List.nil_append, List.cons_append, List.append_assoc] at this ⊢
        unfold afterTag
        split
        · rename_i heq
          exact absurd (List.cons.inj (List.cons.inj heq).2).1 hc
        · rename_i heq
          rw [← (List.cons.inj heq).2]
          exact this
        · rename_i h
          exact absurd rfl (h _)
    · have := afterLetters_some h1 h2 r
      simp only [List.nil_append, List.cons_append, List.append_assoc] at this ⊢
      unfold afterTag
      exact this

theorem strip_tag {t rest : List Char} (ht : Tag t) : strip (t ++ rest) = strip rest := by
  have h := (afterTag_iff (t ++ rest) rest).mpr ⟨t, ht, rfl⟩
  cases hs : t ++ rest with
  | nil =>
    obtain ⟨slash, letters, -, -, -, rfl⟩ := ht
    simp at hs
  | cons c cs =>
    rw [hs] at h
    rw [strip]
    split
    · rename_i r hr
      rw [h] at hr
      rw [Option.some.inj hr]
    · rename_i hr
      rw [h] at hr
      cases hr

theorem strip_keep {c : Char} {rest : List Char} (h : ∀ t r, Tag t → c :: rest ≠ t ++ r) : strip (c :: rest) = c :: strip rest := by
  rw [strip]
  split
  · rename_i r hr
    obtain ⟨t, ht, he⟩ := (afterTag_iff _ _).mp hr
    exact absurd he (h t r ht)
  · rfl

theorem removed_strip (s : List Char) : Removed s (strip s) := by
  induction hn : s.length using Nat.strongRecOn generalizing s with
  | ind n ih =>
    cases s with
    | nil => rw [strip]; exact .nil
    | cons c cs =>
      cases ha : afterTag (c :: cs) with
      | some r =>
        obtain ⟨t, ht, he⟩ := (afterTag_iff _ _).mp ha
        have hl := afterTag_length ha
        rw [he, strip_tag ht]
        exact .tag t r _ ht (ih r.length (by omega) r rfl)
      | none =>
        have hk : ∀ t r, Tag t → c :: cs ≠ t ++ r := by
          intro t r ht he
          rw [(afterTag_iff _ r).mpr ⟨t, ht, he⟩] at ha
          cases ha
        rw [strip_keep hk]
        exact .keep c cs _ hk (ih cs.length (by simp only [List.length_cons] at hn; omega) cs rfl)

/-- **C103, tags.** Without `rich`, a text is printed without its tags, taken out from left to right, and with everything else. -/
theorem C103_tags (s out : List Char) : strip s = out ↔ Removed s out := by
  constructor
  · rintro rfl
    exact removed_strip s
  · intro h
    induction h with
    | nil => rw [strip]
    | tag t rest out ht _ ih => rw [strip_tag ht, ih]
    | keep c rest out hk _ ih => rw [strip_keep hk, ih]

theorem removed_length {s out : List Char} (h : Removed s out) : out.length ≤ s.length := by
  induction h with
  | nil => simp
  | tag t rest out _ _ ih => simp only [List.length_append]; omega
  | keep c rest out _ _ ih => simp only [List.length_cons]; omega

theorem tag_length {t : List Char} (h : Tag t) : 0 < t.length := by
  obtain ⟨_, _, _, _, _, rfl⟩ := h
  simp

theorem removed_same {s : List Char} (h : Removed s s) : ¬ HasTag s := by
  have key : ∀ {s out : List Char}, Removed s out → out = s → ¬ HasTag s := by
    intro s out h
    induction h with
    | nil =>
      rintro - ⟨pre, t, post, ht, he⟩
      have := tag_length ht
      have := congrArg List.length he
      simp only [List.length_nil, List.length_append] at this
      omega
    | tag t rest out ht hr _ =>
      intro e
      have h1 := removed_length hr
      have h2 := tag_length ht
      rw [e, List.length_append] at h1
      omega
    | keep c rest out hk hr ih =>
      rintro e ⟨pre, t, post, ht, he⟩
      cases pre with
      | nil => exact hk t post ht (by simpa using he)
      | cons p pre =>
        rw [List.cons_append, List.cons_append] at he
        exact ih (List.cons.inj e).2 ⟨pre, t, post, ht, (List.cons.inj he).2⟩
  exact key h rfl

theorem same_of_none {s : List Char} (h : ¬ HasTag s) : strip s = s := by
  induction s with
  | nil => rw [strip]
  | cons c cs ih =>
    rw [strip_keep (fun t r ht he => h ⟨[], t, r, ht, by simpa using he⟩), ih]
    rintro ⟨pre, t, post, ht, he⟩
    exact h ⟨c :: pre, t, post, ht, by rw [he]; simp⟩

theorem strip_same_iff (s : List Char) : strip s = s ↔ ¬ HasTag s := by
  refine ⟨fun h => removed_same ?_, same_of_none⟩
  have := removed_strip s
  rwa [h] at this

/-! ## Raw commands -/

section
variable (evaluate : String → Except Exc Json) (dumps : Json → List Char) (json : Bool)

theorem command_given {dev : Dev} {module : Option String} {cmd : String} {text : Option String} {parameters : Option Json}
    (hg : Given evaluate text parameters) :
    command evaluate dumps json dev module cmd text = command.finish dumps json (query dev module cmd parameters) := by
  cases hg with
  | none => rfl
  | some s v h => unfold command; rw [Option.map_some, h]

/-- **C103, raw commands of legacy devices.** The command is sent once, to the module given, with the parameters given or none; the answer's values
are the result, if the device accepts it, and `KasaException` is raised, and nothing printed, if it refuses or cannot be reached. -/
theorem C103_legacy (send : Json → Except Exc Json) (sn : Except Exc Unit) (module cmd : String) (text : Option String) (parameters : Option Json)
    (hg : Given evaluate text parameters) :
    let o := command evaluate dumps json (.iot send sn) (some module) cmd text
    let request := legacyRequest module cmd (parameters.getD (.obj []))
    o.sent = [request] ∧
    (∀ response values, send request = .ok response → Proper response → Accepted module cmd response (.obj values) →
      ∃ z, o.result = .ok (.obj z) ∧ (∀ k, Dict.get? values k = Dict.get? z k) ∧ o.printed = echo json (dumps (.obj z))) ∧
    (∀ response, send request = .ok response → Refused module cmd response → o.result = .error .kasa ∧ o.printed = []) ∧
    (∀ e, send request = .error e → o.result = .error (if e.isException then .kasa else e) ∧ o.printed = []) := by
  intro o request
  have hr : Iot.createRequest module cmd parameters none = request := rfl
  have ho : o = command.finish dumps json (Iot.queryHelper send module cmd parameters none, [request]) := by
    show command evaluate dumps json (.iot send sn) (some module) cmd text = _
    rw [command_given evaluate dumps json hg]
    rfl
  refine ⟨?_, ?_, ?_, ?_⟩
  · rw [ho]
    cases Iot.queryHelper send module cmd parameters none <;> rfl
  · intro response values h1 h2 h3
    obtain ⟨z, hz, hk⟩ := Iot.C23_accepted send module cmd parameters none response (.obj values) (by rw [hr]; exact h1) h2 h3
    refine ⟨z, ?_, hk, ?_⟩ <;> rw [ho, hz] <;> rfl
  · intro response h1 h2
    have := Iot.C23_refused_partial send module cmd parameters none response (by rw [hr]; exact h1) h2
    constructor <;> rw [ho, this] <;> rfl
  · intro e h1
    have := Iot.C23_transport send module cmd parameters none e (by rw [hr]; exact h1)
    constructor <;> rw [ho, this] <;> rfl

/-- **C103, raw commands of newer devices.** The command is sent once, with the parameters given or none; the answer is the result, and errors are
raised as they are.  The module is not looked at. -/
theorem C103_smart (q : Json → Except Exc Json) (module : Option String) (cmd : String) (text : Option String) (parameters : Option Json)
    (hg : Given evaluate text parameters) :
    let o := command evaluate dumps json (.smart q) module cmd text
    let request := Json.obj [(cmd, parameters.getD .null)]
    o.sent = [request] ∧ o.result = q request ∧
      o.printed = (match q request with | .ok res => echo json (dumps res) | .error _ => []) := by
  intro o request
  have ho : o = command.finish dumps json (q request, [request]) := by
    show command evaluate dumps json (.smart q) module cmd text = _
    rw [command_given evaluate dumps json hg]
    cases module <;> rfl
  rw [ho]
  cases q request <;> exact ⟨rfl, rfl, rfl⟩

/-- **C103, mistakes.** Parameters that are no literal are refused before anything is sent; a legacy device without a module is never asked
anything it could answer, and `KasaException` is raised, as it is for a device of neither kind. -/
theorem C103_mistakes (dev : Dev) (module : Option String) (cmd : String) :
    (∀ s e, evaluate s = .error e → command evaluate dumps json dev module cmd (some s) = ⟨.error e, [], []⟩) ∧
    (∀ send sn text parameters, Given evaluate text parameters → (∀ e, sn = .error e → e.isException) →
      command evaluate dumps json (.iot send sn) none cmd text = ⟨.error .kasa, [], []⟩) ∧
    (∀ text parameters, Given evaluate text parameters → command evaluate dumps json .other module cmd text = ⟨.error .kasa, [], []⟩) := by
  refine ⟨?_, ?_, ?_⟩
  · intro s e h
    unfold command
    rw [Option.map_some, h]
  · intro send sn text parameters hg hs
    rw [command_given evaluate dumps json hg]
    cases sn with
    | ok u => rfl
    | error e =>
      show command.finish dumps json (.error (if e.isException then .kasa else e), []) = _
      rw [if_pos (hs e rfl)]
      rfl
  · intro text parameters hg
    rw [command_given evaluate dumps json hg]
    cases module <;> rfl

/-- **C103, `raw-command`** does what `command --module` does. -/
theorem C103_raw (dev : Dev) (module cmd : String) (text : Option String) :
    rawCommand evaluate dumps json dev module cmd text = command evaluate dumps json dev (some module) cmd text := rfl

/-- **C103, printing, in part.** With `--json`, and for a result whose JSON has no lower case word alone in brackets, exactly the JSON of the result is
printed.  (What is missing: other results.) -/
theorem C103_prints_partial (res : Json) (h : json = true ∨ ¬ HasTag (dumps res)) : PrintsAll dumps json res (echo json (dumps res)) := by
  unfold PrintsAll echo
  rcases h with rfl | h
  · rfl
  · rw [same_of_none h]

/-- **C103, printing, fails.** Without `rich`, of a result with a lower case word alone in brackets, such as the list `[true]`, less than its JSON is
printed. -/
theorem C103_prints_counterexample (res : Json) (h : HasTag (dumps res)) : ¬ PrintsAll dumps false res (echo false (dumps res)) := by
  intro e
  have : strip (dumps res) = dumps res := (List.cons.inj e).1
  exact (strip_same_iff _).mp this h

end

/-! ## Groups -/

section
variable (modules : String → Option (String → Option Thing)) (g : Group)

theorem get_lazy_iff (name : String) : (∃ parent, Dict.get? g.lazy name = some parent) ↔ name ∈ g.lazy.map (·.1) := by
  constructor
  · rintro ⟨parent, h⟩
    exact List.mem_map.mpr ⟨_, Dict.mem_of_get? h, rfl⟩
  · intro h
    cases hg : Dict.get? g.lazy name with
    | some p => exact ⟨p, rfl⟩
    | none => exact absurd h (Dict.get?_eq_none_iff.mp hg)

/-- **C103, listing.** A group lists exactly the commands it finds, or fails to load. -/
theorem C103_listed (name : String) : name ∈ listCommands g ↔ getCommand modules g name ≠ .ok none := by
  unfold listCommands getCommand
  rw [List.mem_append, ← get_lazy_iff g]
  cases hg : Dict.get? g.lazy name with
  | some parent =>
    simp only [Option.some.injEq, exists_eq', true_or, true_iff]
    cases lazyLoad modules parent name <;> simp [bind, Except.bind, pure, Except.pure]
  | none =>
    by_cases hb : name ∈ g.base <;> simp [hb]

theorem lazyLoad_ok {parent : Option String} {name : String} {f : Found} (h : lazyLoad modules parent name = .ok f) :
    ∃ things, modules ((truthy parent).getD name) = some things ∧ things name = some .command ∧ f = .loaded ((truthy parent).getD name) name := by
  simp only [lazyLoad] at h
  split at h
  · cases h
  · rename_i things h1
    split at h
    · cases h
    · cases h
    · rename_i h2
      cases h
      exact ⟨things, h1, h2, rfl⟩

/-- **C103, loading.** A lazy command that is found is the command of its name in the module the table says, its own module if it says none. -/
theorem C103_loaded (name : String) (parent : Option String) (ht : Dict.get? g.lazy name = some parent) (f : Found)
    (h : getCommand modules g name = .ok (some f)) :
    f = .loaded (if parent = none ∨ parent = some "" then name else parent.getD name) name ∧
    ∃ things, modules (if parent = none ∨ parent = some "" then name else parent.getD name) = some things ∧ things name = some .command := by
  have hm : (truthy parent).getD name = if parent = none ∨ parent = some "" then name else parent.getD name := by
    cases parent with
    | none => rfl
    | some s => by_cases hs : s = "" <;> simp [truthy, hs]
  simp only [getCommand, ht] at h
  cases hl : lazyLoad modules parent name with
  | error e => rw [hl] at h; cases h
  | ok f' =>
    rw [hl] at h
    obtain rfl : f' = f := by
      simp only [bind, Except.bind, pure, Except.pure, Except.ok.injEq, Option.some.injEq] at h
      exact h
    obtain ⟨things, h1, h2, h3⟩ := lazyLoad_ok modules hl
    rw [hm] at h1 h3
    exact ⟨h3, things, h1, h2⟩

theorem put_get (acc : List (Option String × List String)) (parent p : Option String) (name : String) :
    Dict.get? (put acc parent name) p = if parent = p then some ((Dict.get? acc parent).getD [] ++ [name]) else Dict.get? acc p := by
  unfold put
  rw [Dict.get?_set]

theorem sections_get (lazy : List (String × Option String)) (acc : List (Option String × List String)) (p : Option String) :
    Dict.get? (sections lazy acc) p =
      if namesOf lazy p = [] then Dict.get? acc p else some ((Dict.get? acc p).getD [] ++ namesOf lazy p) := by
  induction lazy generalizing acc with
  | nil => rfl
  | cons e rest ih =>
    obtain ⟨name, parent⟩ := e
    show Dict.get? (sections rest (put acc parent name)) p = _
    rw [ih, put_get]
    by_cases hp : parent = p
    · subst hp
      have : namesOf ((name, parent) :: rest) parent = name :: namesOf rest parent := by simp [namesOf]
      rw [this]
      by_cases hr : namesOf rest parent = [] <;> simp [hr]
    · have : namesOf ((name, parent) :: rest) p = namesOf rest p := by simp [namesOf, hp]
      rw [this, if_neg hp]

theorem sections_wf (lazy : List (String × Option String)) (acc : List (Option String × List String)) (h : Dict.WF acc) : Dict.WF (sections lazy acc) := by
  induction lazy generalizing acc with
  | nil => exact h
  | cons e rest ih => exact ih _ (Dict.WF_set h _ _)

theorem loadAll_ok {lazy : List (String × Option String)} (h : ∀ e ∈ lazy, ∃ f, lazyLoad modules e.2 e.1 = .ok f) : loadAll modules lazy = .ok () := by
  induction lazy with
  | nil => rfl
  | cons e rest ih =>
    obtain ⟨f, hf⟩ := h e (.head _)
    obtain ⟨name, parent⟩ := e
    show (do let _ ← lazyLoad modules parent name; loadAll modules rest) = _
    rw [show lazyLoad modules parent name = .ok f from hf, ih fun e he => h e (.tail _ he)]
    rfl

/-- **C103, help.** If its lazy commands can be loaded, the help of a group has one section for each module named in its table, and one for the commands
that are their own module; each lists exactly the commands of the table that belong there, in the order of the table. -/
theorem C103_help (h : ∀ e ∈ g.lazy, ∃ f, lazyLoad modules e.2 e.1 = .ok f) :
    ∃ ss, formatCommands modules g = .ok ss ∧ Dict.WF ss ∧
      ∀ parent names, (parent, names) ∈ ss ↔ names = namesOf g.lazy parent ∧ names ≠ [] := by
  refine ⟨sections g.lazy [], ?_, sections_wf _ _ (by simp [Dict.WF, Dict.keys]), ?_⟩
  · unfold formatCommands
    rw [loadAll_ok modules h]
    rfl
  · intro parent names
    have hget := sections_get g.lazy [] parent
    have hw : Dict.WF (sections g.lazy []) := sections_wf _ _ (by simp [Dict.WF, Dict.keys])
    constructor
    · intro hm
      rw [Dict.get?_of_mem hw hm] at hget
      by_cases hn : namesOf g.lazy parent = []
      · rw [if_pos hn] at hget
        cases hget
      · rw [if_neg hn] at hget
        have := Option.some.inj hget
        exact ⟨by simpa [Dict.get?] using this, by rw [show names = namesOf g.lazy parent by simpa [Dict.get?] using this]; exact hn⟩
    · rintro ⟨rfl, hn⟩
      rw [if_neg hn] at hget
      exact Dict.mem_of_get? (by simpa [Dict.get?] using hget)

end

/-- **C103, the tool.** Every command the tool lists is found: the ones of its table are loaded from their modules, under their names. -/
theorem C103_tool (name : String) (h : name ∈ listCommands tool) :
    ∃ f, getCommand cliModules tool name = .ok (some f) ∧ (f = .own name ∨ ∃ m, f = .loaded m name) := by
  have key : ∀ n ∈ listCommands tool, (match getCommand cliModules tool n with
      | .ok (some (.own n')) => n' == n | .ok (some (.loaded _ n')) => n' == n | _ => false) = true := by decide +kernel
  have := key name h
  revert this
  cases getCommand cliModules tool name with
  | error e => intro h; cases h
  | ok o =>
    cases o with
    | none => intro h; cases h
    | some f =>
      cases f with
      | own n' => intro h; exact ⟨_, rfl, .inl (by rw [eq_of_beq h])⟩
      | loaded m n' => intro h; exact ⟨_, rfl, .inr ⟨m, by rw [eq_of_beq h]⟩⟩

theorem tool_loads : ∀ e ∈ tool.lazy, ∃ f, lazyLoad cliModules e.2 e.1 = .ok f := by
  have key : ∀ e ∈ tool.lazy, (lazyLoad cliModules e.2 e.1).toOption.isSome = true := by decide +kernel
  intro e he
  have := key e he
  cases h : lazyLoad cliModules e.2 e.1 with
  | ok f => exact ⟨f, rfl⟩
  | error e' => rw [h] at this; cases this

/-- **C103, the help of the tool, fails.** Three commands the tool has are in no section of its help. -/
theorem C103_help_counterexample (name : String) (h : name ∈ ["command", "raw-command", "shell"]) :
    name ∈ listCommands tool ∧ ∃ ss, formatCommands cliModules tool = .ok ss ∧ ∀ e ∈ ss, name ∉ e.2 := by
  obtain ⟨ss, h1, -, h2⟩ := C103_help cliModules tool tool_loads
  have hl : ∀ n ∈ (["command", "raw-command", "shell"] : List String), n ∈ listCommands tool ∧ n ∉ tool.lazy.map (·.1) := by decide +kernel
  refine ⟨(hl name h).1, ss, h1, fun e he hn => (hl name h).2 ?_⟩
  obtain ⟨he, -⟩ := (h2 e.1 e.2).mp he
  rw [he] at hn
  obtain ⟨x, hx, rfl⟩ := List.mem_map.mp hn
  exact List.mem_map.mpr ⟨x, (List.mem_filter.mp hx).1, rfl⟩

/-- **C103, what the help says, in part.** A command in a section of the help headed "also available under the subcommand" is available there, but
for those of the following theorem. -/
theorem C103_also_partial (name parent : String) (h : (name, some parent) ∈ tool.lazy)
    (hn : name ∉ ["energy", "update_credentials", "vacuum", "hub"]) : AlsoUnder name parent := by
  have key : ∀ e ∈ tool.lazy, e.1 ∉ ["energy", "update_credentials", "vacuum", "hub"] →
      ((e.2.bind members).getD []).contains e.1 = true ∨ e.2 = none := by decide +kernel
  rcases key _ h hn with k | k
  · cases hm : members parent with
    | none => simp [hm] at k
    | some names => exact ⟨names, hm, by simpa [hm] using k⟩
  · cases k

/-- **C103, what the help says, fails.** These four are not: `usage` is no group, there is no `vacuum vacuum` and no `hub hub`, and `device` has the command
under the name `update-credentials`. -/
theorem C103_also_counterexample (name : String) (hn : name ∈ ["energy", "update_credentials", "vacuum", "hub"]) :
    ∃ parent, (name, some parent) ∈ tool.lazy ∧ ¬ AlsoUnder name parent := by
  simp only [List.mem_cons, List.not_mem_nil, or_false] at hn
  have no : ∀ n p, (members p).all (fun names => !names.contains n) = true → ¬ AlsoUnder n p := by
    rintro n p h ⟨names, h1, h2⟩
    simp [h1, h2] at h
  rcases hn with rfl | rfl | rfl | rfl
  · exact ⟨"usage", by decide +kernel, no _ _ (by decide +kernel)⟩
  · exact ⟨"device", by decide +kernel, no _ _ (by decide +kernel)⟩
  · exact ⟨"vacuum", by decide +kernel, no _ _ (by decide +kernel)⟩
  · exact ⟨"hub", by decide +kernel, no _ _ (by decide +kernel)⟩

/-! ## Cases -/

/-- The JSON of a result with a list. -/
def sampleText : List Char := "{\"motor\": [true]}".toList

theorem sample_tag : HasTag sampleText :=
  ⟨"{\"motor\": ".toList, "[true]".toList, "}".toList, ⟨[], "true".toList, .inl rfl, by decide +kernel, by decide +kernel, by decide +kernel⟩,
    by decide +kernel⟩

example := C103_prints_counterexample (fun _ => sampleText) .null sample_tag
example := C103_prints_partial (fun _ => "{}".toList) false .null (.inr fun ⟨pre, t, post, ⟨slash, letters, _, _, _, ht⟩, h⟩ => by
  have : '[' ∈ "{}".toList := by rw [h, ht]; simp
  exact absurd this (by decide +kernel))
example : strip ['[', '/', 'b', ']', '[', '0', ']'] = ['[', '0', ']'] := by
  rw [C103_tags]
  refine .tag ['[', '/', 'b', ']'] _ _ ⟨['/'], ['b'], .inr rfl, by simp, by decide, rfl⟩ ?_
  rw [← C103_tags]
  refine same_of_none ?_
  rintro ⟨pre, t, post, ⟨slash, letters, hs, hn, hl, rfl⟩, h⟩
  cases letters with
  | nil => exact hn rfl
  | cons c cs =>
    have : c ∈ ['[', '0', ']'] := by rw [h]; simp
    have := hl c (.head _)
    revert this
    simp only [List.mem_cons, List.not_mem_nil, or_false] at *
    rcases ‹_ ∨ _› with rfl | rfl | rfl <;> decide

/-- A legacy device. -/
def samplePeer (r : Json) : Except Exc Json :=
  if r = legacyRequest "system" "get_sysinfo" (.obj []) then .ok (.obj [("system", .obj [("get_sysinfo", .obj [("alias", .str "x")])])])
  else .error (.timeout)

example := C103_legacy (fun _ => .error (.other "ValueError")) (fun _ => sampleText) false samplePeer (.ok ()) "system" "get_sysinfo" none none (.none)
example : (command (fun _ => .error (.other "ValueError")) (fun _ => "{}".toList) true (.iot samplePeer (.ok ())) (some "system") "get_sysinfo" none).result =
    .ok (.obj [("alias", .str "x")]) := by decide +kernel
example := C103_smart (fun _ => .ok (.num 3)) (fun _ => sampleText) false (fun r => .ok r) none "get_device_info" (some "3") (some (.num 3)) (.some _ _ rfl)
example := (C103_mistakes (fun _ => .error (.other "ValueError")) (fun _ => sampleText) false .other none "reboot").1 "{" _ rfl
example := C103_listed cliModules tool "energy"
example := C103_loaded cliModules tool "energy" (some "usage") (by decide +kernel) (.loaded "usage" "energy") (by decide +kernel)
example := C103_tool "hsv" (by decide +kernel)
example := C103_help cliModules tool tool_loads
example := C103_help_counterexample "shell" (by decide)
example := C103_also_partial "hsv" "light" (by decide +kernel) (by decide)
example := C103_also_counterexample "energy" (by decide)

end Kasa.CliGroups
