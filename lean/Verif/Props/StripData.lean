import Verif.Model.StripData
import Verif.Spec.IotDevice
/-!
# C26: the data of a strip's sockets
-/

namespace Kasa.StripData

open IotSpec

/-- What a strip may have stored when the sockets are made: different keys have different dict objects. -/
structure Fresh (mem : Mem) (p0 : Top) : Prop where
  valid : ∀ k a, Dict.get? p0 k = some (.ref a) → a < mem.length
  inj : ∀ k k' a, Dict.get? p0 k = some (.ref a) → Dict.get? p0 k' = some (.ref a) → k = k'

/-- The invariant: dict objects made after the sockets belong to one device and key; the others belong to one key, and every
device has them. -/
structure Good (n : Nat) (p0 : Top) (mem : Mem) (tops : Nat → Top) : Prop where
  len : n ≤ mem.length
  valid : ∀ i k a, Dict.get? (tops i) k = some (.ref a) → a < mem.length
  old : ∀ i k a, Dict.get? (tops i) k = some (.ref a) → a < n → Dict.get? p0 k = some (.ref a)
  own : ∀ i j k l a, Dict.get? (tops i) k = some (.ref a) → Dict.get? (tops j) l = some (.ref a) → n ≤ a → i = j ∧ k = l
  keep : ∀ i k s, Dict.get? p0 k = some s → Dict.get? (tops i) k = some s
  oldInj : ∀ k k' a, Dict.get? p0 k = some (.ref a) → Dict.get? p0 k' = some (.ref a) → k = k'
  oldLt : ∀ k a, Dict.get? p0 k = some (.ref a) → a < n

/-- Replacing the outer dict of a device. -/
def put (tops : Nat → Top) (who : Nat) (top : Top) : Nat → Top := fun i => if i = who then top else tops i

theorem put_self (tops : Nat → Top) (who : Nat) (top : Top) : put tops who top who = top := if_pos rfl
theorem put_ne (tops : Nat → Top) {who i : Nat} (top : Top) (h : i ≠ who) : put tops who top i = tops i := if_neg h

/-- What an answer changes. -/
def Effect (p0 : Top) (who : Nat) (mem : Mem) (tops : Nat → Top) (mem' : Mem) (tops' : Nat → Top)
    (said : String → String → Option Json) : Prop :=
  ∀ i t c, data ⟨mem', tops'⟩ i t c =
    if i = who ∨ Dict.get? p0 t ≠ none then (said t c).or (data ⟨mem, tops⟩ i t c) else data ⟨mem, tops⟩ i t c

theorem mergeItem_good {n : Nat} {p0 : Top} {mem mem' : Mem} {tops : Nat → Top} {who : Nat} {top top' : Top}
    {kv : String × Json} (g : Good n p0 mem (put tops who top)) (h : mergeItem mem top kv = .ok (mem', top'))
    (hw : ∀ v, kv.2 = .obj v → Dict.WF v) :
    Good n p0 mem' (put tops who top') ∧ Effect p0 who mem (put tops who top) mem' (put tops who top') (known [kv]) := by
  obtain ⟨k, x⟩ := kv
  have none_case : mem' = mem → top' = top → (∀ v, x ≠ .obj v) → Good n p0 mem' (put tops who top') ∧
      Effect p0 who mem (put tops who top) mem' (put tops who top') (known [(k, x)]) := by
    rintro rfl rfl hx
    refine ⟨g, fun i t c => ?_⟩
    have : known [(k, x)] t c = none := by
      unfold known
      rw [Dict.get?_cons]
      by_cases hk : k = t
      · simp only [hk, if_true]
        cases x with
        | obj v => exact absurd rfl (hx v)
        | null | bool _ | num _ | str _ | arr _ => rfl
      · simp [hk]
    rw [this]
    simp
  unfold mergeItem at h
  cases x with
  | obj v =>
    have hv := hw v rfl
    simp only at h
    have hkn : ∀ t c, known [(k, .obj v)] t c = if k = t then Dict.get? v c else none := by
      intro t c
      unfold known
      rw [Dict.get?_cons]
      by_cases hk : k = t <;> simp [hk]
    cases hg : Dict.get? top k with
    | none =>
      rw [hg] at h
      cases h
      have hp0 : Dict.get? p0 k = none := by
        cases hp : Dict.get? p0 k with
        | none => rfl
        | some s =>
          have := g.keep who k s hp
          rw [put_self, hg] at this
          cases this
      have get : ∀ i l, Dict.get? (put tops who (Dict.set top k (.ref mem.length)) i) l =
          if i = who ∧ k = l then some (.ref mem.length) else Dict.get? (put tops who top i) l := by
        intro i l
        by_cases hi : i = who
        · subst hi
          rw [put_self, put_self, Dict.get?_set]
          by_cases hk : k = l <;> simp [hk]
        · rw [put_ne _ _ hi, put_ne _ _ hi]
          simp [hi]
      have hnew : ∀ i l, Dict.get? (put tops who top i) l ≠ some (.ref mem.length) := by
        intro i l hc
        exact Nat.lt_irrefl _ (g.valid i l _ hc)
      refine ⟨⟨?_, ?_, ?_, ?_, ?_, g.oldInj, g.oldLt⟩, ?_⟩
      · rw [List.length_append]; exact Nat.le_trans g.len (Nat.le_add_right _ _)
      · intro i l a ha
        rw [get] at ha
        rw [List.length_append, List.length_singleton]
        split at ha
        · cases ha; omega
        · have := g.valid i l a ha; omega
      · intro i l a ha hn
        rw [get] at ha
        split at ha
        · cases ha; have := g.len; omega
        · exact g.old i l a ha hn
      · intro i j l l' a ha hb hn
        rw [get] at ha hb
        by_cases h1 : i = who ∧ k = l
        · by_cases h2 : j = who ∧ k = l'
          · exact ⟨h1.1.trans h2.1.symm, h1.2.symm.trans h2.2⟩
          · rw [if_pos h1] at ha
            rw [if_neg h2] at hb
            cases ha
            exact absurd hb (hnew _ _)
        · by_cases h2 : j = who ∧ k = l'
          · rw [if_neg h1] at ha
            rw [if_pos h2] at hb
            cases hb
            exact absurd ha (hnew _ _)
          · rw [if_neg h1] at ha
            rw [if_neg h2] at hb
            exact g.own i j l l' a ha hb hn
      · intro i l s hs
        rw [get, if_neg]
        · exact g.keep i l s hs
        · rintro ⟨-, rfl⟩
          rw [hp0] at hs
          cases hs
      · intro i t c
        rw [hkn]
        unfold data
        simp only
        rw [get]
        by_cases h1 : i = who ∧ k = t
        · obtain ⟨rfl, rfl⟩ := h1
          rw [if_pos ⟨rfl, rfl⟩, if_pos (Or.inl rfl), if_pos rfl, put_self, hg]
          simp only [readSlot, List.getElem?_append_right (Nat.le_refl mem.length), Nat.sub_self, List.getElem?_cons_zero,
            Option.bind_some]
          rw [Dict.get?_update hv]
          simp
        · rw [if_neg h1]
          have same : readSlot (mem ++ [Dict.update [] v]) (Dict.get? (put tops who top i) t) c =
              readSlot mem (Dict.get? (put tops who top i) t) c := by
            cases hs : Dict.get? (put tops who top i) t with
            | none => rfl
            | some s =>
              cases s with
              | other v => rfl
              | ref a => simp only [readSlot, List.getElem?_append_left (g.valid i t a hs)]
          rw [same]
          by_cases hk : k = t
          · subst hk
            rw [if_neg]
            rintro (h2 | h2)
            · exact h1 ⟨h2, rfl⟩
            · exact h2 hp0
          · rw [if_neg hk]
            simp
    | some s =>
      cases s with
      | other y => rw [hg] at h; cases h
      | ref a =>
        rw [hg] at h
        cases h
        have ha := g.valid who k a (by rw [put_self]; exact hg)
        refine ⟨⟨?_, ?_, g.old, g.own, g.keep, g.oldInj, g.oldLt⟩, ?_⟩
        · rw [List.length_set]; exact g.len
        · intro i l b hb
          rw [List.length_set]
          exact g.valid i l b hb
        · intro i t c
          rw [hkn]
          unfold data
          simp only
          have hmine : Dict.get? (put tops who top who) k = some (.ref a) := by rw [put_self]; exact hg
          by_cases hr : Dict.get? (put tops who top i) t = some (.ref a)
          · -- the object that changed
            have hkt : k = t ∧ (i = who ∨ Dict.get? p0 t ≠ none) := by
              rcases Nat.lt_or_ge a n with hl | hl
              · have h1 := g.old who k a hmine hl
                have h2 := g.old i t a hr hl
                exact ⟨g.oldInj _ _ _ h1 h2, Or.inr (by rw [h2]; simp)⟩
              · obtain ⟨h1, h2⟩ := g.own i who t k a hr hmine hl
                exact ⟨h2.symm, Or.inl h1⟩
            rw [if_pos hkt.2, if_pos hkt.1, hr]
            simp only [readSlot]
            rw [List.getElem?_set_self ha]
            have : mem[a]? = some (mem.getD a []) := by
              rw [List.getD_eq_getElem?_getD, List.getElem?_eq_getElem ha]
              rfl
            rw [this]
            simp only [Option.bind_some]
            rw [Dict.get?_update hv]
          · have same : readSlot (mem.set a (Dict.update (mem.getD a []) v)) (Dict.get? (put tops who top i) t) c =
                readSlot mem (Dict.get? (put tops who top i) t) c := by
              cases hs : Dict.get? (put tops who top i) t with
              | none => rfl
              | some s =>
                cases s with
                | other v => rfl
                | ref b =>
                  have : a ≠ b := by rintro rfl; exact hr hs
                  simp only [readSlot, List.getElem?_set_ne this]
            rw [same]
            by_cases hk : k = t
            · subst hk
              rw [if_neg]
              rintro (rfl | h2)
              · exact hr hmine
              · cases hp : Dict.get? p0 k with
                | none => exact h2 hp
                | some s =>
                  have h3 := g.keep who k s hp
                  rw [hmine] at h3
                  cases h3
                  exact hr (g.keep i k _ hp)
            · rw [if_neg hk]
              simp
  | null | bool _ | num _ | str _ | arr _ => cases h; exact none_case rfl rfl (fun v hv => by cases hv)

theorem Effect.trans {p0 : Top} {who : Nat} {m1 m2 m3 : Mem} {t1 t2 t3 : Nat → Top} {s1 s2 s3 : String → String → Option Json}
    (h1 : Effect p0 who m1 t1 m2 t2 s1) (h2 : Effect p0 who m2 t2 m3 t3 s2) (hs : ∀ t c, s3 t c = (s2 t c).or (s1 t c)) :
    Effect p0 who m1 t1 m3 t3 s3 := by
  intro i t c
  rw [h2, h1, hs]
  split
  · rw [Option.or_assoc]
  · rfl

theorem Effect.refl {p0 : Top} {who : Nat} {m : Mem} {t : Nat → Top} {s : String → String → Option Json}
    (hs : ∀ t c, s t c = none) : Effect p0 who m t m t s := by
  intro i t c
  rw [hs]
  simp

theorem known_cons {kv : String × Json} {kvs : List (String × Json)} (hw : Dict.WF (kv :: kvs)) (t c : String) :
    known (kv :: kvs) t c = (known kvs t c).or (known [kv] t c) := by
  rw [Dict.WF_cons] at hw
  by_cases hk : kv.1 = t
  · have hn : known kvs t c = none := by
      unfold known
      rw [Dict.get?_eq_none_iff.mpr (hk ▸ hw.1)]
    have he : known (kv :: kvs) t c = known [kv] t c := by
      unfold known
      rw [Dict.get?_cons, Dict.get?_cons]
      simp [hk]
    rw [hn, he]; simp
  · have he : known (kv :: kvs) t c = known kvs t c := by
      unfold known
      rw [Dict.get?_cons]
      simp [hk]
    have hn : known [kv] t c = none := by
      unfold known
      rw [Dict.get?_cons]
      simp [hk]
    rw [hn, he]; simp

theorem mergeItems_good {n : Nat} {p0 : Top} {tops : Nat → Top} {who : Nat} : ∀ (kvs : List (String × Json)) (mem mem' : Mem)
    (top top' : Top), Good n p0 mem (put tops who top) → mergeItems mem top kvs = .ok (mem', top') → Dict.WF kvs →
    (∀ kv ∈ kvs, ∀ v, kv.2 = .obj v → Dict.WF v) →
    Good n p0 mem' (put tops who top') ∧ Effect p0 who mem (put tops who top) mem' (put tops who top') (known kvs) := by
  intro kvs
  induction kvs with
  | nil =>
    intro mem mem' top top' g h _ _
    cases h
    exact ⟨g, Effect.refl fun _ _ => rfl⟩
  | cons kv kvs ih =>
    intro mem mem' top top' g h hw hv
    unfold mergeItems at h
    simp only [bind, Except.bind] at h
    cases hm : mergeItem mem top kv with
    | error e => rw [hm] at h; cases h
    | ok r =>
      obtain ⟨m1, t1⟩ := r
      rw [hm] at h
      obtain ⟨g1, e1⟩ := mergeItem_good g hm (hv kv List.mem_cons_self)
      obtain ⟨g2, e2⟩ := ih m1 mem' t1 top' g1 h (Dict.WF_cons.mp hw).2 (fun x hx => hv x (List.mem_cons_of_mem _ hx))
      exact ⟨g2, e1.trans e2 (known_cons hw)⟩

theorem mergeResponses_good {n : Nat} {p0 : Top} {tops : Nat → Top} {who : Nat} : ∀ (rs : List (List (String × Json)))
    (mem mem' : Mem) (top top' : Top), Good n p0 mem (put tops who top) → mergeResponses mem top rs = .ok (mem', top') →
    (∀ r ∈ rs, Proper (.obj r)) →
    Good n p0 mem' (put tops who top') ∧ Effect p0 who mem (put tops who top) mem' (put tops who top') (latest rs) := by
  intro rs
  induction rs with
  | nil =>
    intro mem mem' top top' g h _
    cases h
    exact ⟨g, Effect.refl fun _ _ => rfl⟩
  | cons r rs ih =>
    intro mem mem' top top' g h hp
    unfold mergeResponses at h
    simp only [bind, Except.bind] at h
    cases hm : mergeItems mem top r with
    | error e => rw [hm] at h; cases h
    | ok x =>
      obtain ⟨m1, t1⟩ := x
      rw [hm] at h
      have hr := hp r List.mem_cons_self
      cases hr with
      | obj _ hw hv =>
        obtain ⟨g1, e1⟩ := mergeItems_good r mem m1 top t1 g hm hw (fun kv hkv v he => by
          have := hv kv hkv
          rw [he] at this
          cases this
          assumption)
        obtain ⟨g2, e2⟩ := ih m1 mem' t1 top' g1 h (fun x hx => hp x (List.mem_cons_of_mem _ hx))
        exact ⟨g2, e1.trans e2 (fun _ _ => rfl)⟩

theorem step_good {n : Nat} {p0 : Top} {w w' : World} {e : Event} (g : Good n p0 w.mem w.tops) (h : step w e = .ok w')
    (hp : ∀ r ∈ e.answers, Proper (.obj r)) :
    Good n p0 w'.mem w'.tops ∧ Effect p0 e.who w.mem w.tops w'.mem w'.tops (latest e.answers) := by
  unfold step at h
  simp only [bind, Except.bind] at h
  cases hm : mergeResponses w.mem (w.tops e.who) e.answers with
  | error e => rw [hm] at h; cases h
  | ok x =>
    obtain ⟨m1, t1⟩ := x
    rw [hm] at h
    cases h
    have hput : put w.tops e.who (w.tops e.who) = w.tops := by
      funext i
      unfold put
      split
      · next h => rw [h]
      · rfl
    have := mergeResponses_good (tops := w.tops) (who := e.who) e.answers w.mem m1 (w.tops e.who) t1 (by rw [hput]; exact g) hm hp
    rw [hput] at this
    exact this

/-- The answers that devices satisfying `p` got, in order. -/
def answersOf (p : Nat → Bool) (es : List Event) : List (List (String × Json)) :=
  (es.filter (fun e => p e.who)).flatMap (·.answers)

theorem latest_append (a b : List (List (String × Json))) (t c : String) :
    latest (a ++ b) t c = (latest b t c).or (latest a t c) := by
  induction a with
  | nil => simp [latest]
  | cons x a ih => rw [List.cons_append, latest, ih, latest, Option.or_assoc]

theorem run_data {n : Nat} {p0 : Top} : ∀ (es : List Event) (w w' : World), Good n p0 w.mem w.tops → run w es = .ok w' →
    (∀ e ∈ es, ∀ r ∈ e.answers, Proper (.obj r)) → ∀ i t c,
    data w' i t c = (latest (answersOf (fun j => decide (j = i ∨ Dict.get? p0 t ≠ none)) es) t c).or (data w i t c) := by
  intro es
  induction es with
  | nil =>
    intro w w' g h _ i t c
    cases h
    simp [answersOf, latest]
  | cons e es ih =>
    intro w w' g h hp i t c
    unfold run at h
    simp only [bind, Except.bind] at h
    cases hs : step w e with
    | error x => rw [hs] at h; cases h
    | ok w1 =>
      rw [hs] at h
      obtain ⟨g1, e1⟩ := step_good g hs (hp e List.mem_cons_self)
      rw [ih w1 w' g1 h (fun x hx => hp x (List.mem_cons_of_mem _ hx)), show data w1 i t c = _ from e1 i t c]
      have : (i = e.who ∨ Dict.get? p0 t ≠ none) ↔ (e.who = i ∨ Dict.get? p0 t ≠ none) := by
        constructor
        · rintro (h | h)
          · exact Or.inl h.symm
          · exact Or.inr h
        · rintro (h | h)
          · exact Or.inl h.symm
          · exact Or.inr h
      unfold answersOf
      by_cases hx : e.who = i ∨ Dict.get? p0 t ≠ none
      · rw [if_pos (this.mpr hx), List.filter_cons_of_pos (by simpa using hx), List.flatMap_cons, latest_append,
          Option.or_assoc]
      · rw [if_neg (fun h => hx (this.mp h)), List.filter_cons_of_neg (by simpa using hx)]

theorem good_created {mem : Mem} {p0 : Top} (h : Fresh mem p0) :
    Good mem.length p0 (created mem p0).mem (created mem p0).tops :=
  ⟨Nat.le_refl _, fun _ => h.valid, fun _ _ _ h _ => h,
    fun _ _ _ _ _ h1 _ h3 => absurd (h.valid _ _ h1) (Nat.not_lt.mpr h3), fun _ _ _ h => h, h.inj, h.valid⟩

/-- C26: over every history of updates of strip and sockets, a socket's data for a target the strip had no data for when the
sockets were made (such as the energy meter) is what was answered to that socket last, and nothing else.  Partial: see
`C26_shared`. -/
theorem C26_own_partial (mem : Mem) (strip : Top) (hf : Fresh mem strip) (es : List Event) (w : World)
    (h : run (created mem strip) es = .ok w) (hp : ∀ e ∈ es, ∀ r ∈ e.answers, Proper (.obj r)) (i : Nat) (t c : String)
    (ht : Dict.get? strip t = none) :
    data w i t c = latest (answersOf (fun j => j == i) es) t c := by
  rw [run_data es _ _ (good_created hf) h hp]
  have : (fun j => decide (j = i ∨ Dict.get? strip t ≠ none)) = (fun j => j == i) := by
    funext j
    rw [ht]
    rcases Decidable.em (j = i) with h | h <;> simp [h]
  rw [this]
  have : data (created mem strip) i t c = none := by
    unfold data created
    simp only [ht]
    rfl
  rw [this]
  simp

/-- C26 fails for the other targets (schedule, countdown, ...): whatever device one looks at, the data is what was answered
last to any of them. -/
theorem C26_shared (mem : Mem) (strip : Top) (hf : Fresh mem strip) (es : List Event) (w : World)
    (h : run (created mem strip) es = .ok w) (hp : ∀ e ∈ es, ∀ r ∈ e.answers, Proper (.obj r)) (i : Nat) (t c : String)
    (ht : Dict.get? strip t ≠ none) :
    data w i t c = (latest (answersOf (fun _ => true) es) t c).or (data (created mem strip) i t c) := by
  rw [run_data es _ _ (good_created hf) h hp]
  have : (fun j => decide (j = i ∨ Dict.get? strip t ≠ none)) = (fun _ => true) := by
    funext j
    simp [ht]
  rw [this]

/-- C26 fails: once a socket has been updated after another, the first one reports what was answered to the second. -/
theorem C26_sibling_overwrites (mem : Mem) (strip : Top) (hf : Fresh mem strip) (t c : String) (x y : Json) (i j : Nat) (w : World)
    (h : run (created mem strip) [⟨i, [[(t, .obj [(c, x)])]]⟩, ⟨j, [[(t, .obj [(c, y)])]]⟩] = .ok w)
    (hx : Proper x) (hy : Proper y) (ht : Dict.get? strip t ≠ none) : data w i t c = some y := by
  have hpr : ∀ z : Json, Proper z → Proper (.obj [(t, .obj [(c, z)])]) := by
    intro z hz
    refine .obj _ (by simp [Dict.WF]) ?_
    intro kv hkv
    rw [List.mem_singleton.mp hkv]
    refine .obj _ (by simp [Dict.WF]) ?_
    intro kv hkv
    rw [List.mem_singleton.mp hkv]
    exact hz
  rw [C26_shared mem strip hf _ w h ?_ i t c ht]
  · simp [answersOf, latest, known, Dict.get?_cons]
  · intro e he r hr
    simp only [List.mem_cons, List.not_mem_nil, or_false] at he
    rcases he with rfl | rfl
    · rw [List.mem_singleton.mp hr]; exact hpr x hx
    · rw [List.mem_singleton.mp hr]; exact hpr y hy

/-! ## Example: a strip whose first update asked for the schedule; two sockets with energy meters -/

def demoMem : Mem := [[("get_sysinfo", .obj [])], [("get_rules", .arr [])]]
def demoTop : Top := [("system", .ref 0), ("schedule", .ref 1), ("err_code", .other (.num 0))]
def demoEvents : List Event :=
  [⟨1, [[("emeter", .obj [("get_realtime", .num 11)]), ("schedule", .obj [("get_rules", .str "one")])]]⟩,
   ⟨2, [[("emeter", .obj [("get_realtime", .num 22)]), ("schedule", .obj [("get_rules", .str "two")])]]⟩]

example : Fresh demoMem demoTop := by
  constructor
  · intro k a h
    simp only [demoTop, Dict.get?_cons, Dict.get?_nil] at h
    split at h
    · cases h; decide
    · split at h
      · cases h; decide
      · split at h <;> cases h
  · intro k k' a h h'
    have mem := Dict.mem_of_get? h
    have mem' := Dict.mem_of_get? h'
    simp only [demoTop, List.mem_cons, List.not_mem_nil, or_false, Prod.mk.injEq] at mem mem'
    rcases mem with ⟨rfl, h1⟩ | ⟨rfl, h1⟩ | ⟨rfl, h1⟩ <;> rcases mem' with ⟨rfl, h2⟩ | ⟨rfl, h2⟩ | ⟨rfl, h2⟩ <;>
      first | rfl | (cases h1; cases h2; done) | (cases h1; done)

/-- After both updates. -/
def demoWorld : World := match run (created demoMem demoTop) demoEvents with | .ok w => w | .error _ => created [] []

example : data demoWorld 1 "emeter" "get_realtime" = some (.num 11) := by rfl
example : data demoWorld 2 "emeter" "get_realtime" = some (.num 22) := by rfl
example : data demoWorld 1 "schedule" "get_rules" = some (.str "two") := by rfl
example : data demoWorld 0 "schedule" "get_rules" = some (.str "two") := by rfl

end Kasa.StripData
