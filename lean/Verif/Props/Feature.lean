import Verif.Model.Feature
import Verif.Lemmas.Num
/-!
# C30, C48, C55: features; C41: looking up children
-/

namespace Kasa.Feature

/-! ## C30: setting values -/

/-- C30: a feature without a setter raises, and sensors never have one. -/
theorem C30_read_only (f : Feature) (g : Getters) (v : Value) :
    (f.settable = false → setValue f g v = (.error (.other "ValueError"), f)) ∧
    (∀ f', postInit f = .ok f' → f.kind = .sensor ∨ f.kind = .binarySensor →
      f'.settable = false ∧ setValue f' g v = (.error (.other "ValueError"), f')) := by
  have h0 : ∀ f : Feature, f.settable = false → setValue f g v = (.error (.other "ValueError"), f) := by
    intro f h
    unfold setValue
    rw [h]
    rfl
  refine ⟨h0 f, ?_⟩
  intro f' h hk
  unfold postInit at h
  simp only [if_pos hk] at h
  by_cases hc : (if f.category = .unset then (if f.settable = true then Category.config else .info) else f.category) = .config
  · rw [if_pos hc] at h
    cases h
  · rw [if_neg hc] at h
    by_cases hs : f.settable = true
    · rw [if_pos hs] at h
      cases h
    · rw [if_neg hs] at h
      have hs' : f.settable = false := by simpa using hs
      have h1 := Except.ok.inj h
      have h2 : f'.settable = false := by rw [← h1]; exact hs'
      exact ⟨h2, h0 _ h2⟩

/-- The limits of a feature: those read before, else those given now. -/
def currentLimits (f : Feature) (g : Getters) : Except Exc (Int × Int) :=
  match f.range with
  | some r => .ok (limits r)
  | none => g.range.map limits

/-- C30, numbers: the setter is called with exactly the numbers within the limits.  Missing: NaN, see `C30_nan`. -/
theorem C30_number_partial (f : Feature) (g : Getters) (v : Value) (lo hi : Int) (hs : f.settable = true) (hk : f.kind = .number)
    (hl : currentLimits f g = .ok (lo, hi)) (hn : v ≠ .num .nan) :
    (∀ x, v = .num x → InRange x lo hi → (setValue f g v).1 = .ok (some v)) ∧
    ((∀ x, v = .num x → ¬ InRange x lo hi) → (setValue f g v).1 = .error (.other "ValueError")) := by
  have hr : ∃ r f', readRange f g = (.ok r, f') ∧ limits r = (lo, hi) := by
    unfold readRange
    unfold currentLimits at hl
    cases hf : f.range with
    | some r => rw [hf] at hl; exact ⟨r, f, rfl, Except.ok.inj hl⟩
    | none =>
      rw [hf] at hl
      cases hg : g.range with
      | error e => rw [hg] at hl; cases hl
      | ok r => rw [hg] at hl; exact ⟨r, _, rfl, Except.ok.inj hl⟩
  obtain ⟨r, f', h1, h2⟩ := hr
  have harg : argument f v = some v := by unfold argument; rw [if_neg (by rw [hk]; decide)]
  constructor
  · intro x hv hx
    subst hv
    have hnum : x.isNumber = true := by
      obtain ⟨q, hq, -⟩ := hx
      cases x <;> first | rfl | cases hq
    have hc : checkNumber x r = .ok () := by
      unfold checkNumber
      rw [h2]
      exact (refuseOutside_ok_iff _ _ _ _).mpr (Or.inr hx)
    unfold setValue
    rw [hs, hk]
    simp only [Bool.not_true, Bool.false_eq_true, if_false, if_true, hnum, h1, hc, harg]
  · intro hx
    unfold setValue
    rw [hs, hk]
    simp only [Bool.not_true, Bool.false_eq_true, if_false, if_true]
    cases v with
    | num x =>
      simp only
      by_cases hnum : x.isNumber = true
      · obtain ⟨e, he, h'⟩ := refuseOutside_error (e := .other "ValueError") (fun h => hn (by rw [h])) (hx x rfl)
        have hc : checkNumber x r = .error (.other "ValueError") := by
          unfold checkNumber
          rw [h2, he, h' hnum]
        simp only [hnum, Bool.not_true, Bool.false_eq_true, if_false, h1, hc]
      · have : x.isNumber = false := by simpa using hnum
        simp only [this, Bool.not_false, if_true]
    | str s => rfl
    | other => rfl

/-- C30: without a range the limits are 0 and 65536. -/
theorem C30_default_limits (f : Feature) (g : Getters) (h1 : f.range = none) (h2 : g.range = .ok none) :
    currentLimits f g = .ok (0, 65536) := by
  unfold currentLimits
  rw [h1, h2]
  rfl

/-- C30, choices: the setter is called with exactly the choices. -/
theorem C30_choice (f : Feature) (g : Getters) (v : Value) (cs : Option (List String)) (hs : f.settable = true) (hk : f.kind = .choice)
    (hc : g.choices = .ok cs) :
    (∀ s l, v = .str s → cs = some l → s ∈ l → (setValue f g v).1 = .ok (some v)) ∧
    ((∀ s l, v = .str s → cs = some l → s ∉ l) → (setValue f g v).1 = .error (.other "ValueError")) := by
  have harg : argument f v = some v := by unfold argument; rw [if_neg (by rw [hk]; decide)]
  constructor
  · intro s l hv hl hm
    subst hv hl
    have h1 : checkChoice (.str s) (some l) = .ok () := by
      unfold checkChoice
      simp [hm]
    unfold setValue
    rw [hs, hk]
    simp [hc, h1, harg]
  · intro h
    have h1 : checkChoice v cs = .error (.other "ValueError") := by
      unfold checkChoice
      cases cs with
      | none => rfl
      | some l =>
        cases v with
        | str s => simp [h s l rfl rfl]
        | num n => rfl
        | other => rfl
    unfold setValue
    rw [hs, hk]
    simp [hc, h1]

/-- C30: an action is called without the value; switches and features of no known type get whatever is given. -/
theorem C30_action (f : Feature) (g : Getters) (v : Value) (hs : f.settable = true) :
    (f.kind = .action → setValue f g v = (.ok none, f)) ∧
    (f.kind = .switch ∨ f.kind = .unknown → setValue f g v = (.ok (some v), f)) := by
  unfold setValue argument
  rw [hs]
  constructor
  · intro h; rw [h]; simp
  · rintro (h | h) <;> rw [h] <;> simp

/-- C30 is false of NaN: it is neither below the minimum nor above the maximum. -/
theorem C30_nan (f : Feature) (g : Getters) (lo hi : Int) (hs : f.settable = true) (hk : f.kind = .number)
    (hl : currentLimits f g = .ok (lo, hi)) : (setValue f g (.num .nan)).1 = .ok (some (.num .nan)) := by
  have hr : ∃ r f', readRange f g = (.ok r, f') := by
    unfold readRange
    unfold currentLimits at hl
    cases hf : f.range with
    | some r => exact ⟨r, f, rfl⟩
    | none =>
      rw [hf] at hl
      cases hg : g.range with
      | error e => rw [hg] at hl; cases hl
      | ok r => exact ⟨r, _, rfl⟩
  obtain ⟨r, f', h1⟩ := hr
  have hc : checkNumber .nan r = .ok () := (refuseOutside_ok_iff _ _ _ _).mpr (Or.inl rfl)
  have harg : argument f (.num .nan) = some (.num .nan) := by unfold argument; rw [if_neg (by rw [hk]; decide)]
  unfold setValue
  rw [hs, hk]
  have hnum : Num.isNumber .nan = true := rfl
  simp only [Bool.not_true, Bool.false_eq_true, if_false, if_true, hnum, h1, hc, harg]

/-- A history of setting values, each with what the getters give at that time. -/
def setMany (f : Feature) : List (Getters × Value) → Feature
  | [] => f
  | (g, v) :: rest => setMany (setValue f g v).2 rest

/-- C30: once read, the range stays, whatever the getter gives later. -/
theorem C30_range_kept (f : Feature) (r : Option (Int × Int)) (h : f.range = some r) (hist : List (Getters × Value)) :
    (setMany f hist).range = some r ∧ ∀ g, currentLimits (setMany f hist) g = .ok (limits r) := by
  have step : ∀ f g v, f.range = some r → (setValue f g v).2.range = some r := by
    intro f g v h
    have hread : readRange f g = (.ok r, f) := by unfold readRange; rw [h]
    unfold setValue
    split
    · exact h
    · split
      · cases v with
        | num x =>
          simp only
          split
          · exact h
          · rw [hread]
            simp only
            cases checkNumber x r <;> exact h
        | str s => exact h
        | other => exact h
      · split
        · cases g.choices with
          | error e => exact h
          | ok cs =>
            simp only
            cases checkChoice v cs <;> exact h
        · exact h
  have hall : ∀ hist f, f.range = some r → (setMany f hist).range = some r := by
    intro hist
    induction hist with
    | nil => intro f h; exact h
    | cons x rest ih => intro f h; obtain ⟨g, v⟩ := x; exact ih _ (step f g v h)
  refine ⟨hall hist f h, ?_⟩
  intro g
  unfold currentLimits
  rw [hall hist f h]

/-- C30: a value outside what the device allows now is forwarded if it was in the range when that was first read. -/
theorem C30_stale_range :
    let f : Feature := ⟨.number, .config, true, none⟩
    let before : Getters := ⟨.ok (some (0, 100)), .ok none⟩
    let now : Getters := ⟨.ok (some (0, 50)), .ok none⟩
    (setValue (setValue f before (.num (.int 10))).2 now (.num (.int 80))).1 = .ok (some (.num (.int 80))) := by
  decide +kernel

/-! ## C48: registering features -/

/-- Registering one after the other, going on after an exception. -/
def addMany (fs : List (String × Entry)) : List Entry → List (String × Entry)
  | [] => fs
  | e :: rest => addMany (addFeature e fs).2 rest

/-- C48: in every history no two features have the same id, each is filed under its own id, and a feature once registered
stays. -/
theorem C48_unique (es : List Entry) :
    Dict.WF (addMany [] es) ∧ (∀ k e, Dict.get? (addMany [] es) k = some e → e.id = k) ∧
    (∀ before after e, es = before ++ e :: after → (∀ e' ∈ before, e'.id ≠ e.id) → Dict.get? (addMany [] es) e.id = some e) := by
  have step : ∀ fs e, Dict.WF fs → Dict.WF (addFeature e fs).2 ∧
      (∀ k v, Dict.get? fs k = some v → Dict.get? (addFeature e fs).2 k = some v) := by
    intro fs e h
    unfold addFeature
    by_cases hh : Dict.has fs e.id = true
    · rw [if_pos hh]
      exact ⟨h, fun _ _ h => h⟩
    · rw [if_neg hh]
      refine ⟨Dict.WF_set h _ _, ?_⟩
      intro k v hk
      have : e.id ≠ k := by
        intro heq
        apply hh
        unfold Dict.has
        rw [heq, hk]
        rfl
      simp only
      rw [Dict.get?_set_ne _ _ this]
      exact hk
  have hwf : ∀ es fs, Dict.WF fs → Dict.WF (addMany fs es) ∧ (∀ k v, Dict.get? fs k = some v → Dict.get? (addMany fs es) k = some v) := by
    intro es
    induction es with
    | nil => intro fs h; exact ⟨h, fun _ _ h => h⟩
    | cons e rest ih =>
      intro fs h
      obtain ⟨h1, h2⟩ := step fs e h
      obtain ⟨h3, h4⟩ := ih _ h1
      exact ⟨h3, fun k v hk => h4 k v (h2 k v hk)⟩
  have hid : ∀ es fs, (∀ k e, Dict.get? fs k = some e → e.id = k) → ∀ k e, Dict.get? (addMany fs es) k = some e → e.id = k := by
    intro es
    induction es with
    | nil => intro fs h; exact h
    | cons e rest ih =>
      intro fs h
      apply ih
      intro k e' hk
      unfold addFeature at hk
      by_cases hh : Dict.has fs e.id = true
      · rw [if_pos hh] at hk; exact h k e' hk
      · rw [if_neg hh] at hk
        simp only [Dict.get?_set] at hk
        split at hk
        · cases hk; assumption
        · exact h k e' hk
  have hbefore : ∀ (before : List Entry) fs (e : Entry), (∀ e' ∈ before, e'.id ≠ e.id) → Dict.get? fs e.id = none →
      Dict.get? (addMany fs before) e.id = none := by
    intro before
    induction before with
    | nil => intro fs e _ h; exact h
    | cons b rest ih =>
      intro fs e hb h
      apply ih _ _ (fun e' he' => hb e' (List.mem_cons_of_mem _ he'))
      unfold addFeature
      split
      · exact h
      · simp only
        rw [Dict.get?_set_ne _ _ (hb b List.mem_cons_self)]
        exact h
  have happ : ∀ (before after : List Entry) fs, addMany fs (before ++ after) = addMany (addMany fs before) after := by
    intro before
    induction before with
    | nil => intro after fs; rfl
    | cons b rest ih => intro after fs; exact ih after _
  refine ⟨(hwf es [] List.nodup_nil).1, hid es [] (fun k e h => by cases h), ?_⟩
  intro before after e hes hb
  subst hes
  rw [happ]
  have h1 : Dict.get? (addMany [] before) e.id = none := hbefore before [] e hb rfl
  have h2 := (hwf before [] List.nodup_nil).1
  have h3 : Dict.get? (addFeature e (addMany [] before)).2 e.id = some e := by
    unfold addFeature
    have : ¬ Dict.has (addMany [] before) e.id = true := by unfold Dict.has; rw [h1]; decide
    rw [if_neg this]
    exact Dict.get?_set_self _ _ _
  change Dict.get? (addMany (addFeature e (addMany [] before)).2 after) e.id = some e
  exact (hwf after _ (step _ e h2).1).2 _ _ h3

/-- C48: a duplicate raises `KasaException` and changes nothing; anything else is added at the end. -/
theorem C48_duplicate (fs : List (String × Entry)) (e : Entry) :
    (e.id ∈ Dict.keys fs → addFeature e fs = (.error .kasa, fs)) ∧
    (e.id ∉ Dict.keys fs → (addFeature e fs).1 = .ok () ∧ Dict.get? (addFeature e fs).2 e.id = some e ∧
      ∀ k, k ≠ e.id → Dict.get? (addFeature e fs).2 k = Dict.get? fs k) := by
  unfold addFeature
  constructor
  · intro h
    rw [if_pos (Dict.has_iff.mpr h)]
  · intro h
    rw [if_neg (fun h' => h (Dict.has_iff.mp h'))]
    refine ⟨rfl, Dict.get?_set_self _ _ _, ?_⟩
    intro k hk
    exact Dict.get?_set_ne _ _ (fun h => hk h.symm)

/-! ## C55: features of attributes -/

/-- The feature of an attribute, said without the code: the one with the declared name, or the first whose getter or setter is
that attribute. -/
def Bound (fs : List (String × Entry)) (attr : String) (name : Option String) (e : Entry) : Prop :=
  match name with
  | some n => Dict.get? fs n = some e
  | none => ∃ before after k, fs = before ++ (k, e) :: after ∧ (e.getter = some attr ∨ e.setter = some attr) ∧
      ∀ p ∈ before, p.2.getter ≠ some attr ∧ p.2.setter ≠ some attr

theorem search_iff (fs : List (String × Entry)) (attr : String) (e : Entry) : search fs attr = some e ↔ Bound fs attr none e := by
  unfold Bound
  induction fs with
  | nil =>
    constructor
    · intro h; cases h
    · rintro ⟨before, after, k, h, -⟩
      cases before <;> cases h
  | cons p rest ih =>
    obtain ⟨k, e'⟩ := p
    unfold search
    by_cases h : e'.getter = some attr ∨ e'.setter = some attr
    · rw [if_pos h]
      constructor
      · intro he; cases he; exact ⟨[], rest, k, rfl, h, by intro p hp; cases hp⟩
      · rintro ⟨before, after, k', heq, -, hb⟩
        cases before with
        | nil => cases heq; rfl
        | cons b bs =>
          cases heq
          obtain ⟨h1, h2⟩ := hb _ List.mem_cons_self
          rcases h with h | h
          · exact absurd h h1
          · exact absurd h h2
    · rw [if_neg h, ih]
      constructor
      · rintro ⟨before, after, k', heq, he, hb⟩
        refine ⟨(k, e') :: before, after, k', by rw [heq]; rfl, he, ?_⟩
        intro p hp
        rcases List.mem_cons.mp hp with hp | hp
        · subst hp; exact ⟨fun h' => h (Or.inl h'), fun h' => h (Or.inr h')⟩
        · exact hb p hp
      · rintro ⟨before, after, k', heq, he, hb⟩
        cases before with
        | nil => cases heq; exact absurd he h
        | cons b bs => cases heq; exact ⟨bs, after, k', rfl, he, fun p hp => hb p (List.mem_cons_of_mem _ hp)⟩

theorem boundFeature_iff (m : Module) (attr : String) (name : Option String) (h : m.attrs attr = .bound name) (hne : name ≠ some "") :
    ∃ r, boundFeature m attr = .ok r ∧ ∀ e, r = some e ↔ Bound m.features attr name e := by
  unfold boundFeature
  rw [h]
  cases name with
  | none => exact ⟨_, rfl, fun e => search_iff _ _ e⟩
  | some n =>
    have : n ≠ "" := fun h => hne (by rw [h])
    simp only [this, if_false]
    exact ⟨_, rfl, fun e => Iff.rfl⟩

/-- An operation on a module. -/
inductive Op where
  | add (e : Entry)
  | ask (attr : String)

def step (m : Module) : Op → Module
  | .add e => (moduleAdd e m).2
  | .ask a => (hasFeature a m).2

def run (m : Module) : List Op → Module
  | [] => m
  | o :: rest => run (step m o) rest

theorem run_append (xs ys : List Op) (m : Module) : run m (xs ++ ys) = run (run m xs) ys := by
  induction xs generalizing m with
  | nil => rfl
  | cons x rest ih => exact ih _

theorem ask_fields (m : Module) (a : String) : (hasFeature a m).2.features = m.features ∧ (hasFeature a m).2.attrs = m.attrs := by
  unfold hasFeature getFeature
  cases Dict.get? m.cache a with
  | some r => exact ⟨rfl, rfl⟩
  | none =>
    simp only
    cases boundFeature m a <;> exact ⟨rfl, rfl⟩

/-- Every cached answer is the present one. -/
def CacheOk (m : Module) : Prop := ∀ a r, Dict.get? m.cache a = some r → boundFeature m a = .ok r

theorem ask_cacheOk (m : Module) (a : String) (h : CacheOk m) : CacheOk (hasFeature a m).2 := by
  have hf := ask_fields m a
  have hb : ∀ x, boundFeature (hasFeature a m).2 x = boundFeature m x := by
    intro x
    unfold boundFeature
    rw [hf.1, hf.2]
  intro x r hx
  rw [hb]
  unfold hasFeature getFeature at hx
  cases hc : Dict.get? m.cache a with
  | some r' => rw [hc] at hx; exact h x r hx
  | none =>
    rw [hc] at hx
    cases hbf : boundFeature m a with
    | error e => rw [hbf] at hx; exact h x r hx
    | ok r' =>
      rw [hbf] at hx
      simp only [Dict.get?_set] at hx
      split at hx
      · rename_i heq; cases hx; rw [← heq]; exact hbf
      · exact h x r hx

/-- C55: if nothing is asked before all features are registered, then at every later time, however often it was asked before,
`has_feature` is true exactly if there is a feature of that attribute, and `get_feature` gives it; an attribute that is not there
or has no feature declared raises.  Missing: asking earlier, see `C55_stale`. -/
theorem C55_partial (attrs : String → Attr) (es : List Entry) (asked : List String) (attr : String) :
    let m := run ⟨attrs, [], []⟩ (es.map .add ++ asked.map .ask)
    (∀ name, attrs attr = .bound name → name ≠ some "" →
      ∃ r, (getFeature attr m).1 = .ok r ∧ (hasFeature attr m).1 = .ok r.isSome ∧ ∀ e, r = some e ↔ Bound (addMany [] es) attr name e) ∧
    (attrs attr = .missing ∨ attrs attr = .unbound → (getFeature attr m).1 = .error .kasa ∧ (hasFeature attr m).1 = .error .kasa) := by
  have hadd : ∀ (es : List Entry) (m : Module), m.cache = [] → (run m (es.map .add)).cache = [] ∧
      (run m (es.map .add)).attrs = m.attrs ∧ (run m (es.map .add)).features = addMany m.features es := by
    intro es
    induction es with
    | nil => intro m h; exact ⟨h, rfl, rfl⟩
    | cons e rest ih => intro m h; exact ih _ h
  have hask : ∀ (as : List String) (m : Module), CacheOk m → CacheOk (run m (as.map .ask)) ∧
      (run m (as.map .ask)).attrs = m.attrs ∧ (run m (as.map .ask)).features = m.features := by
    intro as
    induction as with
    | nil => intro m h; exact ⟨h, rfl, rfl⟩
    | cons a rest ih =>
      intro m h
      obtain ⟨h1, h2, h3⟩ := ih _ (ask_cacheOk m a h)
      exact ⟨h1, h2.trans (ask_fields m a).2, h3.trans (ask_fields m a).1⟩
  obtain ⟨h1, h2, h3⟩ := hadd es ⟨attrs, [], []⟩ rfl
  have h0 : CacheOk (run ⟨attrs, [], []⟩ (es.map .add)) := by
    intro a r h
    rw [h1] at h
    cases h
  obtain ⟨h4, h5, h6⟩ := hask asked _ h0
  intro m
  have hm : m = run (run ⟨attrs, [], []⟩ (es.map .add)) (asked.map .ask) := run_append _ _ _
  rw [← hm] at h4 h5 h6
  have hattrs : m.attrs = attrs := h5.trans h2
  have hfeat : m.features = addMany [] es := h6.trans h3
  have hget : (getFeature attr m).1 = boundFeature m attr := by
    unfold getFeature
    cases hc : Dict.get? m.cache attr with
    | some r => exact (h4 attr r hc).symm
    | none =>
      simp only
      cases boundFeature m attr <;> rfl
  have hhas : (hasFeature attr m).1 = (boundFeature m attr).map Option.isSome := by
    rw [← hget]
    unfold hasFeature
    cases hg : getFeature attr m with
    | mk r m' => cases r <;> rfl
  rw [hget, hhas]
  constructor
  · intro name hn hne
    obtain ⟨r, hr1, hr2⟩ := boundFeature_iff m attr name (by rw [hattrs]; exact hn) hne
    rw [hfeat] at hr2
    exact ⟨r, hr1, by rw [hr1]; rfl, hr2⟩
  · intro h
    have : boundFeature m attr = .error .kasa := by
      unfold boundFeature
      rw [hattrs]
      rcases h with h | h <;> rw [h]
    rw [this]
    exact ⟨rfl, rfl⟩

/-- C55 is false in general: an answer given before the feature was registered stays. -/
theorem C55_stale (attrs : String → Attr) (attr : String) (e : Entry) (h : attrs attr = .bound none) (hg : e.getter = some attr) :
    (hasFeature attr (run ⟨attrs, [], []⟩ [.ask attr, .add e])).1 = .ok false ∧
    (hasFeature attr (run ⟨attrs, [], []⟩ [.add e, .ask attr])).1 = .ok true := by
  have h1 : boundFeature ⟨attrs, [], []⟩ attr = .ok none := by unfold boundFeature; simp only [h]; rfl
  have h2 : boundFeature ⟨attrs, [(e.id, e)], []⟩ attr = .ok (some e) := by
    unfold boundFeature
    simp only [h]
    unfold search
    simp [hg]
  constructor
  · simp only [run, step, hasFeature, getFeature, moduleAdd, Dict.get?_nil, h1]
    simp [Dict.set, Dict.get?, addFeature, Dict.has]
  · simp only [run, step, hasFeature, getFeature, moduleAdd, addFeature]
    simp [Dict.set, Dict.get?, Dict.has, h2]

/-! ## C41: looking up children -/

/-- C41: the child with that id; else the first whose alias, not empty, is that name up to case; else none. -/
theorem C41_child (lower : String → String) (children : List (String × Child)) (name : String) :
    (∀ c, Dict.get? children name = some c → getChild lower children name = some c) ∧
    (Dict.get? children name = none →
      (∀ c, getChild lower children name = some c ↔ ∃ before after id, children = before ++ (id, c) :: after ∧
        (∃ a, c.alias = some a ∧ a ≠ "" ∧ lower a = lower name) ∧
        ∀ p ∈ before, ∀ a, p.2.alias = some a → a ≠ "" → lower a ≠ lower name) ∧
      (getChild lower children name = none ↔ ∀ p ∈ children, ∀ a, p.2.alias = some a → a ≠ "" → lower a ≠ lower name)) := by
  have hm : ∀ c, aliasMatches lower name c = true ↔ ∃ a, c.alias = some a ∧ a ≠ "" ∧ lower a = lower name := by
    intro c
    unfold aliasMatches
    cases c.alias with
    | none => simp
    | some a => simp
  have hm' : ∀ c, aliasMatches lower name c = false ↔ ∀ a, c.alias = some a → a ≠ "" → lower a ≠ lower name := by
    intro c
    unfold aliasMatches
    cases c.alias with
    | none => simp
    | some a => simp
  refine ⟨fun c h => by unfold getChild; rw [h], ?_⟩
  intro h
  have hg : getChild lower children name = (children.map (·.2)).find? (aliasMatches lower name) := by
    unfold getChild
    rw [h]
  rw [hg]
  constructor
  · intro c
    clear h hg
    induction children with
    | nil =>
      constructor
      · intro h; cases h
      · rintro ⟨before, after, id, h, -⟩; cases before <;> cases h
    | cons p rest ih =>
      obtain ⟨id, c'⟩ := p
      cases hc : aliasMatches lower name c' with
      | true =>
        simp only [List.map_cons, List.find?_cons, hc]
        constructor
        · intro he; have he' := Option.some.inj he; subst he'; exact ⟨[], rest, id, rfl, (hm _).mp hc, by intro p hp; cases hp⟩
        · rintro ⟨before, after, id', heq, -, hb⟩
          cases before with
          | nil => cases heq; rfl
          | cons b bs =>
            cases heq
            have := (hm' c').mpr (hb _ List.mem_cons_self)
            rw [hc] at this
            cases this
      | false =>
        simp only [List.map_cons, List.find?_cons, hc]
        rw [ih]
        constructor
        · rintro ⟨before, after, id', heq, he, hb⟩
          refine ⟨(id, c') :: before, after, id', by rw [heq]; rfl, he, ?_⟩
          intro p hp
          rcases List.mem_cons.mp hp with hp | hp
          · subst hp; exact (hm' c').mp hc
          · exact hb p hp
        · rintro ⟨before, after, id', heq, he, hb⟩
          cases before with
          | nil =>
            cases heq
            have := (hm _).mpr he
            rw [hc] at this
            cases this
          | cons b bs => cases heq; exact ⟨bs, after, id', rfl, he, fun p hp => hb p (List.mem_cons_of_mem _ hp)⟩
  · rw [List.find?_eq_none]
    constructor
    · intro hx p hp
      have := hx p.2 (List.mem_map_of_mem hp)
      exact (hm' p.2).mp (by simpa using this)
    · intro hx c hc
      obtain ⟨p, hp, rfl⟩ := List.mem_map.mp hc
      rw [(hm' p.2).mpr (hx p hp)]
      decide

/-- C41: by name, the first child with exactly that alias, else `KasaException`. -/
theorem C41_by_name (children : List (String × Child)) (name : String) :
    ((∃ p ∈ children, p.2.alias = some name) → ∃ i c, getPlugByName children name = .ok c ∧
      (children.map (·.2))[i]? = some c ∧ c.alias = some name ∧
      ∀ (j : Nat) c', j < i → (children.map (·.2))[j]? = some c' → c'.alias ≠ some name) ∧
    ((∀ p ∈ children, p.2.alias ≠ some name) → getPlugByName children name = .error .kasa) := by
  unfold getPlugByName
  constructor
  · rintro ⟨p, hp, ha⟩
    cases hf : (children.map (·.2)).find? (fun c => decide (c.alias = some name)) with
    | none =>
      rw [List.find?_eq_none] at hf
      have := hf p.2 (List.mem_map_of_mem hp)
      simp [ha] at this
    | some c =>
      obtain ⟨h1, bs, as, h2, h3⟩ := List.find?_eq_some_iff_append.mp hf
      refine ⟨bs.length, c, rfl, ?_, by simpa using h1, ?_⟩
      · rw [h2]; simp
      · intro j c' hj hc'
        rw [h2, List.getElem?_append_left hj] at hc'
        have := h3 c' (List.mem_of_getElem? hc')
        simpa using this
  · intro h
    have : (children.map (·.2)).find? (fun c => decide (c.alias = some name)) = none := by
      rw [List.find?_eq_none]
      intro c hc
      obtain ⟨p, hp, rfl⟩ := List.mem_map.mp hc
      simpa using h p hp
    rw [this]

/-- C41: by index, the child at that place, counted from 0; every other index, also a negative one, raises `KasaException`. -/
theorem C41_by_index (children : List (String × Child)) (index : Int) :
    (∀ n : Nat, index = n → ∀ id c, children[n]? = some (id, c) → getPlugByIndex children index = .ok c) ∧
    ((index < 0 ∨ (children.length : Int) ≤ index) → getPlugByIndex children index = .error .kasa) := by
  unfold getPlugByIndex
  constructor
  · intro n hn id c hc
    have hlt : n < children.length := (List.getElem?_eq_some_iff.mp hc).1
    rw [if_neg (by omega)]
    subst hn
    simp [hc]
  · intro h
    rw [if_pos (by omega)]

/-! ### Examples -/

def demoFeature : Feature := ⟨.number, .config, true, none⟩
def demoGetters : Getters := ⟨.ok (some (0, 100)), .ok (some ["a", "b"])⟩
example : (setValue demoFeature demoGetters (.num (.int 101))).1 = .error (.other "ValueError") := by decide +kernel
example : (setValue demoFeature demoGetters (.num (.float 0.5))).1 = .ok (some (.num (.float 0.5))) := by decide +kernel
example : currentLimits demoFeature demoGetters = .ok (0, 100) := rfl
example : (setValue { demoFeature with kind := .choice } demoGetters (.str "c")).1 = .error (.other "ValueError") := by decide +kernel
example : (postInit ⟨.sensor, .unset, true, none⟩).isOk = false := by decide
example : (postInit ⟨.sensor, .unset, false, none⟩).isOk = true := by decide
example : (addMany [] [⟨"a", none, none⟩, ⟨"a", some "x", none⟩, ⟨"b", none, none⟩]).length = 2 := by decide
example : getChild (fun s => s) [("1", ⟨some "lamp", 0⟩), ("2", ⟨some "lamp", 1⟩)] "lamp" = some ⟨some "lamp", 0⟩ := by decide
example : getChild (fun s => s) [("1", ⟨some "2", 0⟩), ("2", ⟨some "lamp", 1⟩)] "2" = some ⟨some "lamp", 1⟩ := by decide
example : getPlugByIndex [("1", ⟨some "2", 0⟩)] (-1) = .error .kasa := by decide

end Kasa.Feature
