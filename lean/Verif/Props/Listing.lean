import Verif.Spec.Listing
/-!
# C96: listings of features
-/

namespace Kasa.Listing
open PyM Feature ListingSpec

variable {text : Exc → String} {verbose : Bool} {indent : String}

/-! ## Lines -/

theorem echo_bind {β : Type} (s : String) (k : Unit → PyM Lines β) (l : Lines) : (echo s >>= k) l = k () (l ++ [s]) := rfl

/-- A computation that adds lines and does not raise. -/
def Adds (m : PyM Lines Unit) (lines : Lines) : Prop := ∀ l, m l = (.ok (), l ++ lines)

theorem Adds.bind {m : PyM Lines Unit} {k : Unit → PyM Lines Unit} {a b : Lines} (hm : Adds m a) (hk : Adds (k ()) b) : Adds (m >>= k) (a ++ b) := by
  intro l
  rw [PyM.bind_ok (hm l), hk, List.append_assoc]

theorem adds_echo (s : String) : Adds (echo s) [s] := fun _ => rfl

theorem adds_pure : Adds (pure ()) [] := fun l => by rw [List.append_nil]; rfl

theorem adds_ite (c : Bool) {m : PyM Lines Unit} {a : Lines} (hm : Adds m a) : Adds (if c then m else pure ()) (if c then a else []) := by
  cases c
  · exact adds_pure
  · exact hm

theorem adds_each {α : Type} {body : α → PyM Lines Unit} (f : α → Lines) : ∀ (xs : List α), (∀ x ∈ xs, Adds (body x) (f x)) →
    Adds (each body xs) (xs.flatMap f)
  | [], _ => adds_pure
  | x :: xs, h => by
    unfold each
    rw [List.flatMap_cons]
    exact (h x List.mem_cons_self).bind (adds_each f xs fun y hy => h y (List.mem_cons_of_mem _ hy))

/-! ## Features -/

theorem value_calm (f : Item) (h : Calm f) : ¬ Interrupted (value f) := by
  unfold value
  split
  · exact fun h => h
  · cases hg : f.getter with
    | none =>
      intro h
      exact absurd (show Exc.isException (.other "ValueError") = false from h) (by decide)
    | some x => exact h.1 x hg

theorem withUnit_calm (f : Item) (h : Calm f) (t : String) (e : Exc) (he : withUnit f t = .error e) : e.isException = true := by
  unfold withUnit at he
  cases hu : f.unit with
  | error x =>
    rw [hu] at he
    cases he
    have := h.2.2.1
    rw [hu] at this
    cases hx : e.isException with
    | true => rfl
    | false => exact absurd hx this
  | ok u =>
    rw [hu] at he
    simp only [bind, Except.bind] at he
    split at he
    · cases hl : f.limits with
      | error x =>
        rw [hl] at he
        cases he
        have := h.2.2.2
        rw [hl] at this
        cases hx : e.isException with
        | true => rfl
        | false => exact absurd hx this
      | ok r =>
        rw [hl] at he
        cases he
    · cases he

theorem repr_calm (f : Item) (h : Calm f) (e : Exc) (he : repr text f = .error e) : e.isException = true := by
  unfold repr at he
  have hv := value_calm f h
  cases hval : value f with
  | error x =>
    rw [hval] at hv he
    simp only [bind, Except.bind] at he
    split at he
    · cases he
    · rename_i hx
      exact absurd (Bool.eq_false_iff.mpr hx) hv
  | ok v =>
    rw [hval] at he
    simp only [bind, Except.bind] at he
    have hc := h.2.1
    cases hch : f.choices with
    | error x =>
      rw [hch] at hc he
      simp only at he
      split at he
      · cases he
      · rename_i hx
        exact absurd (Bool.eq_false_iff.mpr hx) hc
    | ok c =>
      rw [hch] at he
      simp only [pure, Except.pure] at he
      split at he
      · cases c with
        | none => cases he
        | some cs =>
          simp only at he
          split at he
          · cases he
          · exact withUnit_calm f h _ e he
      · exact withUnit_calm f h _ e he

theorem echoFeature_adds (f : Item) (h : Calm f) : ∃ lines, Adds (echoFeature text verbose indent f) lines ∧ ShownAs text verbose indent f lines := by
  cases hr : repr text f with
  | ok s =>
    refine ⟨_, ?_, .text s hr⟩
    intro l
    unfold echoFeature
    rw [hr]
    cases verbose <;> simp [tryExcept, lift, echo, bind, PyM.bind, pure, PyM.pure, block]
  | error e =>
    refine ⟨_, ?_, .failed e hr⟩
    intro l
    unfold echoFeature
    rw [hr]
    have t : ")" ++ ": [red]got exception (" = "): [red]got exception (" := by decide +kernel
    simp only [tryExcept, lift, raise, bind, PyM.bind, repr_calm f h e hr, if_true, echo, label, String.append_assoc, ← t]

theorem each_features : ∀ (fs : List Item), (∀ f ∈ fs, Calm f) →
    ∃ lines, Adds (each (echoFeature text verbose indent) fs) lines ∧ ShownAll text verbose indent fs lines
  | [], _ => ⟨[], adds_pure, .nil⟩
  | f :: fs, h => by
    obtain ⟨a, ha, hs⟩ := echoFeature_adds (text := text) (verbose := verbose) (indent := indent) f (h f List.mem_cons_self)
    obtain ⟨b, hb, ht⟩ := each_features fs fun g hg => h g (List.mem_cons_of_mem _ hg)
    exact ⟨a ++ b, ha.bind hb, .cons hs ht⟩

theorem perm_categories : ∀ (fs : List Item), (∀ f ∈ fs, f.category ≠ .unset) →
    (fs.filter (fun f => decide (f.category = .primary)) ++ fs.filter (fun f => decide (f.category = .info)) ++
      fs.filter (fun f => decide (f.category = .config)) ++ fs.filter (fun f => decide (f.category = .debug))).Perm fs
  | [], _ => .nil
  | f :: fs, h => by
    have ih := (perm_categories fs fun g hg => h g (List.mem_cons_of_mem _ hg)).cons f
    have hf := h f List.mem_cons_self
    simp only [List.append_assoc] at ih ⊢
    cases hcat : f.category with
    | unset => exact absurd hcat hf
    | primary =>
      simpa only [List.filter_cons, hcat, decide_true, if_true, reduceCtorEq, decide_false, Bool.false_eq_true, if_false, List.cons_append] using ih
    | info =>
      simp only [List.filter_cons, hcat, decide_true, if_true, reduceCtorEq, decide_false, Bool.false_eq_true, if_false, List.cons_append]
      exact List.perm_middle.trans ih
    | config =>
      simp only [List.filter_cons, hcat, decide_true, if_true, reduceCtorEq, decide_false, Bool.false_eq_true, if_false, List.cons_append]
      rw [← List.append_assoc]
      refine List.perm_middle.trans ?_
      rw [List.append_assoc]
      exact ih
    | debug =>
      simp only [List.filter_cons, hcat, decide_true, if_true, reduceCtorEq, decide_false, Bool.false_eq_true, if_false]
      rw [← List.append_assoc, ← List.append_assoc]
      refine List.perm_middle.trans ?_
      rw [List.append_assoc, List.append_assoc]
      exact ih

theorem echoAll_adds (fs : List Item) (hc : ∀ f ∈ fs, Calm f) (hu : ∀ f ∈ fs, f.category ≠ .unset) :
    ∃ lines, Adds (echoAll text verbose none indent fs) lines ∧ Listed text verbose indent fs lines := by
  have sub : ∀ c : Category, (fs.filter fun f => decide (f.category = c)).Sublist fs := fun c => List.filter_sublist
  have cat : ∀ c : Category, ∀ f ∈ (fs.filter fun f => decide (f.category = c)), f.category = c := fun c f hf =>
    of_decide_eq_true (List.mem_filter.mp hf).2
  have sec : ∀ c : Category, ∃ lines, Adds (each (echoFeature text verbose indent) (fs.filter fun f => decide (f.category = c))) lines ∧
      ShownAll text verbose indent (fs.filter fun f => decide (f.category = c)) lines := fun c =>
    each_features _ fun f hf => hc f ((sub c).subset hf)
  obtain ⟨la, a1, a2⟩ := sec .primary
  obtain ⟨lb, b1, b2⟩ := sec .info
  obtain ⟨lc, c1, c2⟩ := sec .config
  obtain ⟨ld, d1, d2⟩ := sec .debug
  refine ⟨_, ?_, _, _, _, _, la, lb, lc, ld, perm_categories fs hu, sub _, sub _, sub _, sub _, cat _, cat _, cat _, cat _, a2, b2, c2, d2, rfl⟩
  have key := ((adds_echo (indent ++ "[bold]" ++ "== Primary features ==" ++ "[/bold]")).bind (k := fun _ => _) a1).bind (k := fun _ => _)
    ((adds_echo "").bind (k := fun _ => _) (((adds_echo (indent ++ "[bold]" ++ "== Information ==" ++ "[/bold]")).bind (k := fun _ => _) b1).bind
      (k := fun _ => _) ((adds_echo "").bind (k := fun _ => _) (((adds_echo (indent ++ "[bold]" ++ "== Configuration ==" ++ "[/bold]")).bind
        (k := fun _ => _) c1).bind (k := fun _ => _) ((adds_echo "").bind (k := fun _ => _)
          ((adds_echo (indent ++ "[bold]" ++ "== Debug ==" ++ "[/bold]")).bind (k := fun _ => _) d1))))))
  intro l
  refine (key l).trans ?_
  have t1 : "[bold]" ++ ("== Primary features ==" ++ "[/bold]") = "[bold]== Primary features ==[/bold]" := by decide +kernel
  have t2 : "[bold]" ++ ("== Information ==" ++ "[/bold]") = "[bold]== Information ==[/bold]" := by decide +kernel
  have t3 : "[bold]" ++ ("== Configuration ==" ++ "[/bold]") = "[bold]== Configuration ==[/bold]" := by decide +kernel
  have t4 : "[bold]" ++ ("== Debug ==" ++ "[/bold]") = "[bold]== Debug ==[/bold]" := by decide +kernel
  simp only [List.cons_append, List.nil_append, List.append_assoc, String.append_assoc, t1, t2, t3, t4]

/-- **C96, every feature once.** A listing of features does not raise, whatever the features raise (unless the program is interrupted), and
shows every feature exactly once, in the section of its category and in the order of the device; a feature that fails is shown as such. -/
theorem C96_listed (fs : List Item) (hc : ∀ f ∈ fs, Calm f) (hu : ∀ f ∈ fs, f.category ≠ .unset) (l : Lines) :
    ∃ lines, echoAll text verbose none indent fs l = (.ok (), l ++ lines) ∧ Listed text verbose indent fs lines := by
  obtain ⟨lines, ha, hl⟩ := echoAll_adds (text := text) (verbose := verbose) (indent := indent) fs hc hu
  exact ⟨lines, ha l, hl⟩

/-- The same under a heading. -/
theorem echoAll_headed (p : String) (fs : List Item) (hc : ∀ f ∈ fs, Calm f) (hu : ∀ f ∈ fs, f.category ≠ .unset) :
    ∃ lines, Adds (echoAll text verbose (some p) indent fs) (("[bold]\n" ++ indent ++ "== " ++ p ++ " ==[/bold]") :: "" :: lines) ∧
      Listed text verbose indent fs lines := by
  obtain ⟨lines, ha, hl⟩ := echoAll_adds (text := text) (verbose := verbose) (indent := indent) fs hc hu
  refine ⟨lines, ?_, hl⟩
  intro l
  have : echoAll text verbose (some p) indent fs l =
      echoAll text verbose none indent fs (l ++ ["[bold]\n" ++ indent ++ "== " ++ p ++ " ==[/bold]"] ++ [""]) := rfl
  rw [this, ha]
  simp only [List.append_assoc, List.cons_append, List.nil_append]

/-! ## The commands -/

/-- The features of the device can be listed. -/
def Listable (fs : List Item) : Prop := (∀ f ∈ fs, Calm f) ∧ ∀ f ∈ fs, f.category ≠ .unset

/-- **C96, the `feature` command.** Without a name it lists the features of the device and of each of its children. -/
theorem C96_feature_command (fs : List Item) (children : List Sub) (hf : Listable fs) (hc : ∀ c ∈ children, Listable c.features)
    (ha : ∀ c ∈ children, ∃ a, c.alias = .ok a) (l : Lines) :
    ∃ own rest, listFeatures text verbose fs children l = (.ok (), l ++ own ++ rest) ∧ Listed text verbose "" fs own ∧
      Children text verbose (fun alias _ => "[bold]\n\t== Child " ++ alias ++ " ==[/bold]") (fun _ => []) children rest := by
  obtain ⟨own, h1, h2⟩ := echoAll_adds (text := text) (verbose := verbose) (indent := "") fs hf.1 hf.2
  have key : ∀ cs : List Sub, (∀ c ∈ cs, Listable c.features) → (∀ c ∈ cs, ∃ a, c.alias = .ok a) →
      ∃ rest, Adds (each (fun c => do
        let alias ← lift c.alias
        echoAll text verbose (some ("Child " ++ alias)) "\t" c.features) cs) rest ∧
        Children text verbose (fun alias _ => "[bold]\n\t== Child " ++ alias ++ " ==[/bold]") (fun _ => []) cs rest := by
    intro cs
    induction cs with
    | nil => exact fun _ _ => ⟨[], adds_pure, .nil⟩
    | cons c cs ih =>
      intro hc ha
      obtain ⟨rest, r1, r2⟩ := ih (fun x hx => hc x (List.mem_cons_of_mem _ hx)) fun x hx => ha x (List.mem_cons_of_mem _ hx)
      obtain ⟨alias, hal⟩ := ha c List.mem_cons_self
      have hcc := hc c List.mem_cons_self
      obtain ⟨lines, g1, g2⟩ := echoAll_headed (text := text) (verbose := verbose) (indent := "\t") ("Child " ++ alias) c.features hcc.1 hcc.2
      refine ⟨_, ?_, Children.cons (lines := lines) (rest := rest) hal g2 r2⟩
      unfold each
      have t : "[bold]\n" ++ "\t" ++ "== " ++ ("Child " ++ alias) ++ " ==[/bold]" = "[bold]\n\t== Child " ++ alias ++ " ==[/bold]" := by
        simp only [← String.append_assoc]
        rfl
      rw [t] at g1
      have hb : ∀ L, Adds (echoAll text verbose (some ("Child " ++ alias)) "\t" c.features) L →
          Adds (do let alias ← lift c.alias; echoAll text verbose (some ("Child " ++ alias)) "\t" c.features) L := by
        intro L h
        rw [hal]
        exact h
      have := (hb _ g1).bind (k := fun _ => _) r1
      simpa using this
  obtain ⟨rest, r1, r2⟩ := key children hc ha
  refine ⟨own, rest, ?_, h2, r2⟩
  unfold listFeatures
  rw [List.append_assoc]
  exact (h1.bind (k := fun _ => _) r1) l

/-- What `--verbose` adds for a child. -/
def childModules (verbose : Bool) (x : String × Sub) : List String :=
  if verbose then ("\n\t[bold]== Child " ++ x.1 ++ " Modules ==[/bold]") :: x.2.modules.map fun m => "\t[green]+ " ++ m ++ "[/green]" else []

/-- The heading of a child in the `state` command. -/
def childHeading (alias : String) (model : Except Exc String) : String :=
  "[bold]\n\t== " ++ alias ++ " (" ++ (match model with | .ok m => m | .error _ => "") ++ ") ==[/bold]"

theorem adds_modules (f : String → String) (ms : List String) : Adds (each (fun m => echo (f m)) ms) (ms.map f) := by
  have := adds_each (body := fun m => echo (f m)) (fun m => [f m]) ms fun x _ => adds_echo _
  have h : ∀ xs : List String, xs.flatMap (fun m => [f m]) = xs.map f := fun xs => by
    induction xs with
    | nil => rfl
    | cons x xs ih => rw [List.flatMap_cons, ih]; rfl
  rwa [h] at this

theorem adds_readable : ∀ (ls : List (Except Exc String)) (ts : List String), ls = ts.map .ok →
    Adds (each (fun l => do let s ← lift l; echo s) ls) ts
  | _, [], h => by subst h; exact adds_pure
  | _, t :: ts, h => by
    subst h
    have ih := adds_readable (ts.map .ok) ts rfl
    exact (adds_echo t).bind (k := fun _ => _) ih

/-- **C96, the `state` command.** If what is shown about the device itself can be read, the command shows the features of the device and of each
of its children, whatever the features raise. -/
theorem C96_state (x : Facts) (hf : Listable x.features) (hc : ∀ c ∈ x.children, Listable c.features)
    (ha : ∀ c ∈ x.children, (∃ a, c.alias = .ok a) ∧ ∃ m, c.model = .ok m)
    (heading : List String) (hh : x.heading = heading.map .ok) (location : String) (hl : x.location = .ok location)
    (protocol : List String) (hp : x.protocol = protocol.map .ok) (l : Lines) :
    ∃ own rest, state text verbose x l = (.ok (), l ++ (heading ++ (if verbose then [location] else []) ++ "" :: own ++
        (if verbose then "\n[bold]== Modules ==[/bold]" :: x.modules.map (fun m => "[green]+ " ++ m ++ "[/green]") else []) ++
        (if x.children = [] then [] else "\n[bold]== Children ==[/bold]" :: rest ++ [""]) ++ if verbose then protocol else [])) ∧
      Listed text verbose "" x.features own ∧ Children text verbose childHeading (childModules verbose) x.children rest := by
  obtain ⟨own, h1, h2⟩ := echoAll_adds (text := text) (verbose := verbose) (indent := "") x.features hf.1 hf.2
  have key : ∀ cs : List Sub, (∀ c ∈ cs, Listable c.features) → (∀ c ∈ cs, (∃ a, c.alias = .ok a) ∧ ∃ m, c.model = .ok m) →
      ∃ rest, Adds (each (fun c => do
        let alias ← lift c.alias
        let model ← lift c.model
        echoAll text verbose (some (alias ++ " (" ++ model ++ ")")) "\t" c.features
        if verbose then do
          echo ("\n\t[bold]== Child " ++ alias ++ " Modules ==[/bold]")
          each (fun m => echo ("\t[green]+ " ++ m ++ "[/green]")) c.modules
        else pure ()) cs) rest ∧ Children text verbose childHeading (childModules verbose) cs rest := by
    intro cs
    induction cs with
    | nil => exact fun _ _ => ⟨[], adds_pure, .nil⟩
    | cons c cs ih =>
      intro hc ha
      obtain ⟨rest, r1, r2⟩ := ih (fun x hx => hc x (List.mem_cons_of_mem _ hx)) fun x hx => ha x (List.mem_cons_of_mem _ hx)
      obtain ⟨⟨alias, hal⟩, model, hmo⟩ := ha c List.mem_cons_self
      have hcc := hc c List.mem_cons_self
      obtain ⟨lines, g1, g2⟩ := echoAll_headed (text := text) (verbose := verbose) (indent := "\t") (alias ++ " (" ++ model ++ ")") c.features
        hcc.1 hcc.2
      refine ⟨_, ?_, Children.cons (lines := lines) (rest := rest) hal g2 r2⟩
      unfold each
      have t : "[bold]\n" ++ "\t" ++ "== " ++ (alias ++ " (" ++ model ++ ")") ++ " ==[/bold]" = childHeading alias c.model := by
        unfold childHeading
        rw [hmo]
        have t1 : "[bold]\n" ++ "\t" ++ "== " = "[bold]\n\t== " := by decide +kernel
        have t2 : ")" ++ " ==[/bold]" = ") ==[/bold]" := by decide +kernel
        rw [t1, ← t2]
        simp only [String.append_assoc]
      rw [t] at g1
      have hv := adds_ite verbose ((adds_echo ("\n\t[bold]== Child " ++ alias ++ " Modules ==[/bold]")).bind (k := fun _ => _)
        (adds_modules (fun m => "\t[green]+ " ++ m ++ "[/green]") c.modules))
      have hb : ∀ L, Adds (do
          echoAll text verbose (some (alias ++ " (" ++ model ++ ")")) "\t" c.features
          (if verbose then do
            echo ("\n\t[bold]== Child " ++ alias ++ " Modules ==[/bold]")
            each (fun m => echo ("\t[green]+ " ++ m ++ "[/green]")) c.modules
          else pure ())) L → Adds (do
          let alias ← lift c.alias
          let model ← lift c.model
          echoAll text verbose (some (alias ++ " (" ++ model ++ ")")) "\t" c.features
          if verbose then do
            echo ("\n\t[bold]== Child " ++ alias ++ " Modules ==[/bold]")
            each (fun m => echo ("\t[green]+ " ++ m ++ "[/green]")) c.modules
          else pure ()) L := by
        intro L h
        rw [hal, hmo]
        exact h
      have := (hb _ (g1.bind (k := fun _ => _) hv)).bind (k := fun _ => _) r1
      unfold childModules
      simpa only [List.append_assoc, List.cons_append, List.nil_append] using this
  obtain ⟨rest, r1, r2⟩ := key x.children hc ha
  refine ⟨own, rest, ?_, h2, r2⟩
  have hloc : Adds (if verbose then (do let s ← lift x.location; echo s) else pure ()) (if verbose then [location] else []) := by
    refine adds_ite verbose ?_
    rw [hl]
    exact adds_echo location
  have hmods := adds_ite verbose ((adds_echo "\n[bold]== Modules ==[/bold]").bind (k := fun _ => _)
    (adds_modules (fun m => "[green]+ " ++ m ++ "[/green]") x.modules))
  have hprot : Adds (if verbose then each (fun l => do let s ← lift l; echo s) x.protocol else pure ()) (if verbose then protocol else []) :=
    adds_ite verbose (adds_readable _ _ hp)
  have hch : Adds (if x.children.isEmpty then pure () else do
      echo "\n[bold]== Children ==[/bold]"
      each (fun c => do
        let alias ← lift c.alias
        let model ← lift c.model
        echoAll text verbose (some (alias ++ " (" ++ model ++ ")")) "\t" c.features
        if verbose then do
          echo ("\n\t[bold]== Child " ++ alias ++ " Modules ==[/bold]")
          each (fun m => echo ("\t[green]+ " ++ m ++ "[/green]")) c.modules
        else pure ()) x.children
      echo "") (if x.children = [] then [] else "\n[bold]== Children ==[/bold]" :: rest ++ [""]) := by
    cases hx : x.children with
    | nil => exact adds_pure
    | cons c cs =>
      rw [hx] at r1
      rw [if_neg (by simp), if_neg (by simp)]
      exact (adds_echo _).bind (k := fun _ => _) (r1.bind (k := fun _ => _) (adds_echo ""))
  have := ((adds_readable _ _ hh).bind (k := fun _ => _) (hloc.bind (k := fun _ => _) ((adds_echo "").bind (k := fun _ => _)
    (h1.bind (k := fun _ => _) (hmods.bind (k := fun _ => _) (hch.bind (k := fun _ => _) hprot)))))) l
  refine Eq.trans ?_ (this.trans ?_)
  · rfl
  · simp only [List.append_assoc, List.cons_append, List.nil_append]

/-- **C96, what stops the `state` command.** If something about the device itself cannot be read, the command stops there, before any feature. -/
theorem C96_state_stops (x : Facts) (before : List String) (e : Exc) (after : List (Except Exc String))
    (h : x.heading = before.map .ok ++ .error e :: after) (l : Lines) : state text verbose x l = (.error e, l ++ before) := by
  have key : ∀ (ts : List String) (l : Lines), each (fun l => do let s ← lift l; echo s) (ts.map .ok ++ .error e :: after) l = (.error e, l ++ ts) := by
    intro ts
    induction ts with
    | nil =>
      intro l
      rw [List.append_nil]
      rfl
    | cons t ts ih =>
      intro l
      have : each (fun l => do let s ← lift l; echo s) ((t :: ts).map .ok ++ .error e :: after) l =
          each (fun l => do let s ← lift l; echo s) (ts.map .ok ++ .error e :: after) (l ++ [t]) := rfl
      rw [this, ih, List.append_assoc]
      rfl
  unfold state
  rw [h]
  exact PyM.bind_error (key before l)

/-! ## The texts -/

theorem textOf_eq {f : Item} {v : Val} {t : String} (h : TextOf f v t) : valueText f.precise v = t := by
  cases h with
  | plain t => rfl
  | rounded t r h => simp [valueText, h]
  | whole t r h => simp [valueText, h]
  | enum n r e => rfl

/-- **C96, values.** A value has exactly one text. -/
theorem C96_one_text (f : Item) (v : Val) : ∃ t, TextOf f v t ∧ ∀ t', TextOf f v t' → t' = t := by
  refine ⟨valueText f.precise v, ?_, fun t' h => (textOf_eq h).symm⟩
  cases v with
  | plain t => exact .plain t
  | float t r =>
    cases hp : f.precise
    · exact .whole t r hp
    · exact .rounded t r hp
  | enum n r e => exact .enum n r e

/-- **C96, values.** The value of a feature is what its getter gives; an action has none, and no other feature can do without a getter. -/
theorem C96_value (f : Item) : (f.kind = .action → value f = .ok (.plain "<Action>")) ∧
    (f.kind ≠ .action → ∀ x, f.getter = some x → value f = x) ∧ (f.kind ≠ .action → f.getter = none → value f = .error (.other "ValueError")) := by
  refine ⟨fun h => ?_, fun h x hx => ?_, fun h hx => ?_⟩ <;> simp [value, h, *]

/-- **C96, texts.** A feature is named by its name and id; its value is followed by its unit and, for numbers, by its limits; a value that cannot
be read is reported as such. -/
theorem C96_text (f : Item) :
    (∀ e, value f = .error e → e.isException = true → repr text f = .ok ("Unable to read value (" ++ f.id ++ "): " ++ text e)) ∧
    (∀ v c u t, value f = .ok v → TextOf f v t → f.choices = .ok c → f.kind ≠ .choice → f.kind ≠ .number → f.unit = .ok u →
      repr text f = .ok (f.name ++ " (" ++ f.id ++ "): " ++ t ++ (match u with | some u => " " ++ u | none => ""))) ∧
    (∀ v c u lo hi t, value f = .ok v → TextOf f v t → f.choices = .ok c → f.kind = .number → f.unit = .ok u → f.limits = .ok (lo, hi) →
      repr text f = .ok (f.name ++ " (" ++ f.id ++ "): " ++ t ++ (match u with | some u => " " ++ u | none => "") ++
        " (range: " ++ toString lo ++ "-" ++ toString hi ++ ")")) := by
  have tt : ∀ s : String, ")" ++ (": " ++ s) = "): " ++ s := fun s => by rw [← String.append_assoc]; rfl
  refine ⟨?_, ?_, ?_⟩
  · intro e he hx
    unfold repr
    rw [he]
    simp only [bind, Except.bind, hx, if_true]
  · intro v c u t hv ht hc hk hn hu
    rw [← textOf_eq ht]
    unfold repr withUnit
    rw [hv, hc, hu]
    simp only [bind, Except.bind, pure, Except.pure, hk, hn, if_false, label, String.append_assoc]
    cases u <;> simp [String.append_assoc, tt]
  · intro v c u lo hi t hv ht hc hk hu hl
    rw [← textOf_eq ht]
    unfold repr withUnit
    rw [hv, hc, hu, hl]
    simp only [bind, Except.bind, pure, Except.pure, hk, reduceCtorEq, if_false, if_true, label, String.append_assoc]
    cases u <;> simp [String.append_assoc, tt]

/-- **C96, choices.** A choice is shown by all its values, in order, with the current one between stars, and no other. -/
theorem C96_choice (f : Item) (hk : f.kind = .choice) (v : String) (hv : value f = .ok (.plain v)) (a b : List String)
    (hc : f.choices = .ok (some (a ++ v :: b))) (hu : f.unit = .ok none) (ha : v ∉ a) (hb : v ∉ b) :
    repr text f = .ok (f.name ++ " (" ++ f.id ++ "): " ++ String.intercalate " " (a ++ ("*" ++ v ++ "*") :: b)) := by
  have plain : ∀ xs : List String, v ∉ xs → xs.map (fun c => if chosen (.plain v) c then "*" ++ c ++ "*" else c) = xs := by
    intro xs hx
    conv => rhs; rw [← List.map_id xs]
    refine List.map_congr_left fun c hcm => ?_
    have : c ≠ v := fun h => hx (h ▸ hcm)
    simp [chosen, this]
  unfold repr withUnit
  rw [hv, hc, hu]
  simp only [bind, Except.bind, pure, Except.pure, hk, if_true, nameless, Bool.and_false, Bool.false_eq_true, if_false, reduceCtorEq, label,
    List.map_append, List.map_cons, plain a ha, plain b hb]
  simp only [chosen, decide_true, if_true, String.append_assoc]
  rw [show ∀ s : String, ")" ++ (": " ++ s) = "): " ++ s from fun s => by rw [← String.append_assoc]; rfl]

/-- **C96, invalid choices, in part.** A member of an enumeration that is none of the choices is reported as invalid.  (What is missing: other
values are not.) -/
theorem C96_invalid_partial (f : Item) (hk : f.kind = .choice) (n r : String) (e : Option String) (hv : value f = .ok (.enum n r e))
    (cs : List String) (hc : f.choices = .ok (some cs)) (hn : n ∉ cs) (he : ∀ s, e = some s → s ∉ cs) :
    repr text f = .ok (f.name ++ " (" ++ f.id ++ "): invalid value '" ++ r ++ "' not in " ++ listText cs) := by
  have h1 : among (.enum n r e) cs = false := by
    cases e with
    | none => rfl
    | some s =>
      have := he s rfl
      simpa [among] using this
  unfold repr
  rw [hv, hc]
  simp only [bind, Except.bind, pure, Except.pure, hk, if_true, h1, nameless, List.contains_eq_mem, hn, decide_false, Bool.not_false, Bool.and_self,
    anyText, label, String.append_assoc]
  rw [show ∀ s : String, ")" ++ (": invalid value '" ++ s) = "): invalid value '" ++ s from fun s => by rw [← String.append_assoc]; rfl]

/-- **C96, the counterexample.** A string that is none of the choices is shown as if nothing were chosen. -/
theorem C96_invalid_counterexample (f : Item) (hk : f.kind = .choice) (v : String) (hv : value f = .ok (.plain v)) (cs : List String)
    (hc : f.choices = .ok (some cs)) (hu : f.unit = .ok none) (hn : v ∉ cs) :
    repr text f = .ok (f.name ++ " (" ++ f.id ++ "): " ++ String.intercalate " " cs) := by
  have plain : cs.map (fun c => if chosen (.plain v) c then "*" ++ c ++ "*" else c) = cs := by
    conv => rhs; rw [← List.map_id cs]
    refine List.map_congr_left fun c hcm => ?_
    have : c ≠ v := fun h => hn (h ▸ hcm)
    simp [chosen, this]
  unfold repr withUnit
  rw [hv, hc, hu]
  simp only [bind, Except.bind, pure, Except.pure, hk, if_true, nameless, Bool.and_false, Bool.false_eq_true, if_false, reduceCtorEq, label, plain]
  simp only [String.append_assoc]
  rw [show ∀ s : String, ")" ++ (": " ++ s) = "): " ++ s from fun s => by rw [← String.append_assoc]; rfl]

/-- **C96, categories.** A feature that could be made has a category, so that every feature of a device is in one of the sections. -/
theorem C96_category (f g : Feature.Feature) (h : postInit f = .ok g) : g.category ≠ .unset := by
  unfold postInit at h
  simp only at h
  have hc : (if f.category = .unset then (if f.settable then Category.config else .info) else f.category) ≠ .unset := by
    split
    · split <;> decide
    · assumption
  repeat' split at h
  all_goals try cases h
  all_goals first | assumption | exact (by decide : Category.info ≠ .unset) | exact (by decide : Category.config ≠ .unset)

/-! ## The hypotheses can be met -/

/-- A brightness, a preset, a sensor that fails and one without a value. -/
def sampleBrightness : Item :=
  ⟨"brightness", "Brightness", .number, .primary, "i", false, some (.ok (.plain "50")), .ok none, .ok (some "%"), .ok (0, 100)⟩

def samplePreset : Item :=
  ⟨"light_preset", "Light preset", .choice, .config, "i", false, some (.ok (.plain "Two")), .ok (some ["One", "Two"]), .ok none, .ok (0, 65536)⟩

def sampleBroken : Item :=
  ⟨"rssi", "RSSI", .sensor, .debug, "i", false, some (.error .kasa), .ok none, .ok none, .ok (0, 65536)⟩

def sampleUnit : Item :=
  ⟨"temperature", "Temperature", .sensor, .info, "i", true, some (.ok (.float "21.53" "21.5")), .ok none, .error .kasa, .ok (0, 65536)⟩

example : repr (fun _ => "x") sampleBrightness = .ok "Brightness (brightness): 50 % (range: 0-100)" := by decide +kernel

example : repr (fun _ => "x") samplePreset = .ok "Light preset (light_preset): One *Two*" :=
  C96_choice samplePreset rfl "Two" rfl ["One"] [] rfl rfl (by decide) (by decide)

example : repr (fun _ => "x") sampleBroken = .ok "Unable to read value (rssi): x" := (C96_text sampleBroken).1 .kasa rfl rfl

example : (echoAll (fun _ => "x") false none "" [sampleBroken, sampleUnit, samplePreset, sampleBrightness] []).2 =
    ["[bold]== Primary features ==[/bold]", "Brightness (brightness): 50 % (range: 0-100)", "",
     "[bold]== Information ==[/bold]", "Temperature (temperature): [red]got exception (x)[/red]", "",
     "[bold]== Configuration ==[/bold]", "Light preset (light_preset): One *Two*", "",
     "[bold]== Debug ==[/bold]", "Unable to read value (rssi): x"] := by decide +kernel

theorem sample_listable : Listable [sampleBroken, sampleUnit, samplePreset, sampleBrightness] := by
  refine ⟨?_, ?_⟩
  · intro f hf
    simp only [List.mem_cons, List.not_mem_nil, or_false] at hf
    rcases hf with rfl | rfl | rfl | rfl
    all_goals
      refine ⟨?_, ?_, ?_, ?_⟩
      · rintro x ⟨⟩
        simp [Interrupted, Exc.isException]
      · simp [sampleBroken, sampleUnit, samplePreset, sampleBrightness, Interrupted]
      · simp [sampleBroken, sampleUnit, samplePreset, sampleBrightness, Interrupted, Exc.isException]
      · simp [sampleBroken, sampleUnit, samplePreset, sampleBrightness, Interrupted]
  · intro f hf
    simp only [List.mem_cons, List.not_mem_nil, or_false] at hf
    rcases hf with rfl | rfl | rfl | rfl <;> decide

example := C96_state (text := fun _ => "x") (verbose := true)
  ⟨[.ok "Host: h"], .ok "Location: l", [sampleBroken, sampleUnit, samplePreset, sampleBrightness], ["<Module>"],
    [⟨.ok "Socket 1", .ok "KP303", [sampleBrightness], []⟩], [.ok "Credentials hash: None"]⟩
  sample_listable (by
    intro c hc
    simp only [List.mem_singleton] at hc
    subst hc
    exact ⟨fun f hf => sample_listable.1 f (by simp only [List.mem_singleton] at hf; simp [hf]),
      fun f hf => sample_listable.2 f (by simp only [List.mem_singleton] at hf; simp [hf])⟩)
  (by
    intro c hc
    simp only [List.mem_singleton] at hc
    subst hc
    exact ⟨⟨_, rfl⟩, _, rfl⟩)
  ["Host: h"] rfl "Location: l" rfl ["Credentials hash: None"] rfl []

example : state (fun _ => "x") false ⟨[.ok "Host: h", .error .kasa], .ok "", [sampleUnit], [], [], []⟩ [] = (.error .kasa, ["Host: h"]) :=
  C96_state_stops _ ["Host: h"] .kasa [] rfl []

end Kasa.Listing
