import Verif.Spec.SmartModule
/-!
# C31, C32, C45: when modules of newer devices are queried, and what they read
-/

namespace Kasa.SmartModule

open Spec
open Smart (Entry)

/-! ## When a module is queried -/

theorem post_disabled (s : State) (t : Rat) (q ok : Bool) (h : s.errors ≥ 10) : postUpdate s t q ok = s := by
  unfold postUpdate disabled
  simp [h]

theorem post_eq (s : State) (t : Rat) (q ok : Bool) (h : s.errors < 10) :
    postUpdate s t q ok = ⟨if q then some t else s.last, if ok then false else if q then true else s.failed,
      if ok then 0 else if q then s.errors + 1 else s.errors⟩ := by
  unfold postUpdate disabled setError
  have : ¬ (s.errors ≥ 10) := by omega
  simp only [this, decide_false, Bool.false_eq_true, if_false]
  cases q <;> cases ok <;> rfl

structure Agrees (s : State) (h : List Rec) : Prop where
  errors : s.errors = failuresInARow h
  failed : s.failed = decide (failuresInARow h > 0)
  last : failuresInARow h < 10 → s.last = lastQuery h

theorem agrees (k : Kind) (es : List Event) : Agrees (run k es) (observe k es) := by
  induction es with
  | nil => exact ⟨rfl, rfl, fun _ => rfl⟩
  | cons e es ih =>
    obtain ⟨i1, i2, i3⟩ := ih
    by_cases hd : failuresInARow (observe k es) ≥ 10
    · have key : (run k (e :: es)).errors = (run k es).errors ∧ (run k (e :: es)).failed = (run k es).failed ∧
          failuresInARow (observe k (e :: es)) = failuresInARow (observe k es) := by
        cases e with
        | update t done ok =>
          have hs : run k (.update t done ok :: es) = run k es := by
            change (if done then _ else _) = _
            rw [post_disabled _ _ _ _ (by omega)]
            cases done <;> rfl
          rw [hs]
          refine ⟨rfl, rfl, ?_⟩
          simp only [observe, failuresInARow]
          rw [if_pos hd]
        | preload t ok =>
          have hs : run k (.preload t ok :: es) = { run k es with last := some t } := post_disabled _ _ _ _ (by change (run k es).errors ≥ 10; omega)
          rw [hs]
          refine ⟨rfl, rfl, ?_⟩
          simp only [observe, failuresInARow]
          rw [if_pos hd]
        | cloud t ok =>
          have hs : run k (.cloud t ok :: es) = run k es := post_disabled _ _ _ _ (by omega)
          rw [hs]
          refine ⟨rfl, rfl, ?_⟩
          simp only [observe, failuresInARow]
          rw [if_pos hd]
        | command => exact ⟨rfl, rfl, rfl⟩
      obtain ⟨k1, k2, k3⟩ := key
      exact ⟨by rw [k1, k3, i1], by rw [k2, k3, i2], fun h => by omega⟩
    · have hlt : (run k es).errors < 10 := by omega
      have hlast := i3 (by omega)
      cases e with
      | update t done ok =>
        have hs : run k (.update t done ok :: es) = if done then postUpdate (run k es) t (queried k (run k es) t) ok else run k es := rfl
        rw [post_eq _ _ _ _ hlt] at hs
        constructor
        · rw [hs]
          simp only [observe, failuresInARow]
          rw [if_neg hd, ← i1]
          cases done <;> cases ok <;> rfl
        · rw [hs]
          simp only [observe, failuresInARow]
          rw [if_neg hd, ← i1]
          rw [← i1] at i2
          cases done
          · exact i2
          · cases ok
            · cases queried k (run k es) t
              · exact i2
              · simp
            · rfl
        · intro _
          rw [hs]
          simp only [observe, lastQuery]
          rw [← hlast]
          cases done <;> cases queried k (run k es) t <;> rfl
      | preload t ok =>
        have hs : run k (.preload t ok :: es) = postUpdate { run k es with last := some t } t false ok := rfl
        rw [post_eq _ _ _ _ (by exact hlt)] at hs
        constructor
        · rw [hs]
          simp only [observe, failuresInARow]
          rw [if_neg hd, ← i1]
          cases ok <;> rfl
        · rw [hs]
          simp only [observe, failuresInARow]
          rw [if_neg hd, ← i1]
          rw [← i1] at i2
          cases ok
          · exact i2
          · rfl
        · intro _
          rw [hs]
          rfl
      | cloud t ok =>
        have hs : run k (.cloud t ok :: es) = postUpdate (run k es) t true ok := rfl
        rw [post_eq _ _ _ _ hlt] at hs
        constructor
        · rw [hs]
          simp only [observe, failuresInARow]
          rw [if_neg hd, ← i1]
          cases ok <;> rfl
        · rw [hs]
          simp only [observe, failuresInARow]
          rw [if_neg hd, ← i1]
          cases ok <;> simp
        · intro _
          rw [hs]
          rfl
      | command => exact ⟨i1, i2, fun _ => rfl⟩

theorem last_positive (k : Kind) (es : List Event) (hpos : ∀ e ∈ es, PositiveTime e) (u : Rat) (h : lastQuery (observe k es) = some u) : 0 < u := by
  induction es with
  | nil => cases h
  | cons e es ih =>
    have hp := hpos e List.mem_cons_self
    have ih := ih (fun e' he' => hpos e' (List.mem_cons_of_mem _ he'))
    cases e with
    | update t done ok =>
      simp only [observe, lastQuery] at h
      by_cases hq : (queried k (run k es) t && done) = true
      · rw [if_pos hq] at h
        cases h
        exact hp
      · rw [if_neg hq] at h
        exact ih h
    | preload t ok => cases h; exact hp
    | cloud t ok => cases h; exact hp
    | command => cases h

theorem wait_eq (k : Kind) (s : State) (h : List Rec) (ha : Agrees s h) : ((updateInterval k s : Nat) : Rat) = wait k (failuresInARow h) := by
  unfold updateInterval wait
  rw [ha.failed, ha.errors]
  by_cases hf : failuresInARow h > 0
  · rw [decide_eq_true hf, if_pos rfl, if_pos hf]
  · rw [decide_eq_false hf, if_neg (by decide), if_neg hf]
    cases k.hubChild
    · rfl
    · rw [if_pos rfl, if_pos rfl]
      decide +kernel

/-- C31: in every history, an update queries a module exactly if fewer than ten of its queries failed in a row, and it has not been
queried since its last command, or the wait that follows from these failures is over. -/
theorem C31_queries (k : Kind) (es : List Event) (hpos : ∀ e ∈ es, PositiveTime e) (t : Rat) :
    queried k (run k es) t = true ↔
      failuresInARow (observe k es) < 10 ∧
        (wait k (failuresInARow (observe k es)) = 0 ∨
          ∀ u, lastQuery (observe k es) = some u → u + wait k (failuresInARow (observe k es)) ≤ t) := by
  have ha := agrees k es
  have hw := wait_eq k (run k es) _ ha
  unfold queried disabled shouldUpdate
  rw [ha.errors, ← hw]
  by_cases hn : failuresInARow (observe k es) < 10
  · have hnd : ¬ (failuresInARow (observe k es) ≥ 10) := by omega
    rw [decide_eq_false hnd, ha.last hn]
    simp only [Bool.not_false, Bool.true_and, Bool.or_eq_true, beq_iff_eq, hn, true_and]
    have hz : ((updateInterval k (run k es) : Nat) : Rat) = 0 ↔ updateInterval k (run k es) = 0 := by
      constructor
      · intro h; exact_mod_cast h
      · intro h; rw [h]; rfl
    rw [hz]
    cases hl : lastQuery (observe k es) with
    | none => simp
    | some u =>
      have hu := last_positive k es hpos u hl
      simp only [Option.some.injEq, forall_eq', Bool.or_eq_true, beq_iff_eq, decide_eq_true_eq]
      have hne : ¬ (u = 0) := by grind
      simp only [hne, false_or]
      constructor
      · rintro (h | h)
        · exact Or.inl h
        · exact Or.inr (by grind)
      · rintro (h | h)
        · exact Or.inl h
        · exact Or.inr (by grind)
  · have hnd : failuresInARow (observe k es) ≥ 10 := by omega
    rw [decide_eq_true hnd]
    simp [hn]

/-- A failed query. -/
def Failed (r : Rec) : Prop := ∃ t, r = .update t true true false

theorem failures_block (fails rest : List Rec) (hf : ∀ r ∈ fails, Failed r) (h0 : failuresInARow rest = 0) (hlen : fails.length ≤ 10) :
    failuresInARow (fails ++ rest) = fails.length := by
  induction fails with
  | nil => exact h0
  | cons r fs ih =>
    have ih := ih (fun r' h' => hf r' (List.mem_cons_of_mem _ h')) (by simp at hlen; omega)
    obtain ⟨t, rfl⟩ := hf _ List.mem_cons_self
    simp only [List.cons_append, failuresInARow, ih, List.length_cons]
    simp only [List.length_cons] at hlen
    rw [if_neg (by omega)]
    rfl

/-- C31: after `n` failed queries in a row, the last at `u`, and no command since, the module is queried again from `30 * n` seconds
after `u` on and not before; if `n` is ten, never again, whatever happens. -/
theorem C31_backoff (k : Kind) (es : List Event) (hpos : ∀ e ∈ es, PositiveTime e) (u : Rat) (fails rest : List Rec) (n : Nat)
    (h : observe k es = .update u true true false :: fails ++ rest) (hn : n = fails.length + 1) (hle : n ≤ 10)
    (hf : ∀ r ∈ fails, Failed r) (h0 : failuresInARow rest = 0) :
    (n < 10 → ∀ t, queried k (run k es) t = true ↔ u + (30 * n : Nat) ≤ t) ∧
    (n = 10 → ∀ later t, queried k (run k (later ++ es)) t = false) := by
  have hblock : failuresInARow (observe k es) = n := by
    rw [h, hn]
    have := failures_block (.update u true true false :: fails) rest
      (fun r hr => by
        rcases List.mem_cons.mp hr with hr | hr
        · exact ⟨u, hr⟩
        · exact hf r hr) h0 (by simp; omega)
    simpa using this
  have hl : lastQuery (observe k es) = some u := by rw [h]; rfl
  constructor
  · intro hlt t
    rw [C31_queries k es hpos t, hblock, hl]
    have hw : wait k n = ((30 * n : Nat) : Rat) := by unfold wait; rw [if_pos (by omega)]
    rw [hw]
    have hne : ¬ (((30 * n : Nat) : Rat) = 0) := by
      intro hc
      have : 30 * n = 0 := by exact_mod_cast hc
      omega
    simp only [hlt, hne, true_and, false_or, Option.some.injEq, forall_eq']
  · intro h10 later t
    have hstay : failuresInARow (observe k (later ++ es)) ≥ 10 := by
      induction later with
      | nil => rw [List.nil_append, hblock]; omega
      | cons e later ih =>
        cases e with
        | update t done ok => simp only [List.cons_append, observe, failuresInARow]; rw [if_pos ih]; exact ih
        | preload t ok => simp only [List.cons_append, observe, failuresInARow]; rw [if_pos ih]; exact ih
        | cloud t ok => simp only [List.cons_append, observe, failuresInARow]; rw [if_pos ih]; exact ih
        | command => exact ih
    have ha := agrees k (later ++ es)
    unfold queried disabled
    rw [ha.errors, decide_eq_true hstay]
    rfl

/-- C31: after a successful query at `u` and no command since, the module is queried again once its own interval, a day below a hub,
has passed, and at every update if there is no interval. -/
theorem C31_recovers (k : Kind) (es : List Event) (hpos : ∀ e ∈ es, PositiveTime e) (u : Rat) (rest : List Rec)
    (h : observe k es = .update u true true true :: rest) (hr : failuresInARow rest < 10) (t : Rat) :
    queried k (run k es) t = true ↔
      (k.hubChild = false ∧ k.interval = 0) ∨ u + (if k.hubChild then 86400 else (k.interval : Rat)) ≤ t := by
  have h0 : failuresInARow (observe k es) = 0 := by
    rw [h]
    simp only [failuresInARow]
    rw [if_neg (by omega)]
    rfl
  have hl : lastQuery (observe k es) = some u := by rw [h]; rfl
  rw [C31_queries k es hpos t, h0, hl]
  have hw : wait k 0 = if k.hubChild then 86400 else (k.interval : Rat) := by unfold wait; rw [if_neg (by omega)]
  rw [hw]
  cases hh : k.hubChild
  · have hz : ((k.interval : Nat) : Rat) = 0 ↔ k.interval = 0 := by
      constructor
      · intro h; exact_mod_cast h
      · intro h; rw [h]; rfl
    simp [hz]
  · have : ¬ ((86400 : Rat) = 0) := by decide +kernel
    simp [this]

/-- C32: after a command of a module, whatever its outcome, the next update queries it whatever its interval, unless it has been
given up.  Missing: modules given up, see `C32_disabled`. -/
theorem C32_command_partial (k : Kind) (es : List Event) (t : Rat) (h : failuresInARow (observe k es) < 10) :
    queried k (run k (.command :: es)) t = true := by
  have ha := agrees k es
  have h1 : (run k (.command :: es)).last = none := rfl
  have h2 : (run k (.command :: es)).errors = failuresInARow (observe k es) := ha.errors
  unfold queried disabled shouldUpdate
  rw [h1, h2, decide_eq_false (by omega)]
  simp

/-- C32 is false of a module that failed ten times: a command does not make it refresh. -/
theorem C32_disabled (k : Kind) (es : List Event) (t : Rat) (h : failuresInARow (observe k es) ≥ 10) :
    queried k (run k (.command :: es)) t = false := by
  have ha := agrees k es
  have h2 : (run k (.command :: es)).errors = failuresInARow (observe k es) := ha.errors
  unfold queried disabled
  rw [h2, decide_eq_true h]
  rfl

/-! ### Examples -/

def demoKind : Kind := ⟨60, false⟩
/-- Queried at 1, failed; at 31, failed; at 91, succeeded. -/
def demoEvents : List Event := [.update 91 true true, .update 31 true false, .update 1 true false]
example : observe demoKind demoEvents = [.update 91 true true true, .update 31 true true false, .update 1 true true false] := by decide +kernel
example : queried demoKind (run demoKind demoEvents) 150 = false ∧ queried demoKind (run demoKind demoEvents) 151 = true := by decide +kernel
example : queried demoKind (run demoKind (.command :: demoEvents)) 92 = true := by decide +kernel
def tenFailures : List Event := (List.range 10).reverse.map (fun n => .update ((n * 1000 + 1 : Nat) : Rat) true false)
example : failuresInARow (observe demoKind tenFailures) = 10 ∧ queried demoKind (run demoKind tenFailures) 1000000 = false := by decide +kernel

/-! ## What a module reads -/

theorem has_iff_get {β : Type} (d : List (String × β)) (k : String) : Dict.has d k = true ↔ ∃ v, Dict.get? d k = some v := by
  unfold Dict.has
  cases h : Dict.get? d k with
  | none => simp
  | some v => simp

theorem removable_spec (optional : List String) (d : List (String × Entry)) :
    ((∀ k c, (k, Entry.error c) ∈ d → k ∈ optional) →
      removable optional d = .ok ((d.filter (fun p => (errorCode p.2).isSome)).map (·.1))) ∧
    (∀ k c, (k, Entry.error c) ∈ d → k ∉ optional → ∃ k' c', (k', Entry.error c') ∈ d ∧ k' ∉ optional ∧ removable optional d = .error (.device (some c'))) := by
  induction d with
  | nil => exact ⟨fun _ => rfl, fun k c h => by cases h⟩
  | cons p rest ih =>
    obtain ⟨key, v⟩ := p
    obtain ⟨ih1, ih2⟩ := ih
    cases v with
    | value x =>
      have hr : removable optional ((key, Entry.value x) :: rest) = removable optional rest := rfl
      constructor
      · intro h
        rw [hr, ih1 (fun k c hm => h k c (List.mem_cons_of_mem _ hm))]
        rfl
      · intro k c hm hk
        rcases List.mem_cons.mp hm with hm | hm
        · cases hm
        · obtain ⟨k', c', a, b, e⟩ := ih2 k c hm hk
          exact ⟨k', c', List.mem_cons_of_mem _ a, b, hr.trans e⟩
    | error x =>
      have hr : removable optional ((key, Entry.error x) :: rest) =
          if optional.contains key then (removable optional rest).map (key :: ·) else .error (.device (some x)) := rfl
      by_cases hk : key ∈ optional
      · rw [if_pos (List.contains_iff_mem.mpr hk)] at hr
        constructor
        · intro h
          rw [hr, ih1 (fun k c hm => h k c (List.mem_cons_of_mem _ hm))]
          rfl
        · intro k c hm hk'
          rcases List.mem_cons.mp hm with hm | hm
          · cases hm; exact absurd hk hk'
          · obtain ⟨k', c', a, b, e⟩ := ih2 k c hm hk'
            refine ⟨k', c', List.mem_cons_of_mem _ a, b, ?_⟩
            rw [hr, e]
            rfl
      · rw [if_neg (fun h => hk (List.contains_iff_mem.mp h))] at hr
        constructor
        · intro h
          exact absurd (h key x List.mem_cons_self) hk
        · intro k c hm hk'
          exact ⟨key, x, List.mem_cons_self, hk, hr⟩

theorem get?_filter {β : Type} (p : String → Bool) (d : List (String × β)) (k : String) :
    Dict.get? (d.filter (fun x => p x.1)) k = if p k then Dict.get? d k else none := by
  induction d with
  | nil => simp [Dict.get?]
  | cons x rest ih =>
    obtain ⟨a, b⟩ := x
    by_cases hp : p a = true
    · rw [List.filter_cons_of_pos (by exact hp), Dict.get?_cons, Dict.get?_cons]
      by_cases hk : a = k
      · subst hk; simp [hp]
      · rw [if_neg hk, if_neg hk, ih]
    · rw [List.filter_cons_of_neg (by exact hp), ih, Dict.get?_cons]
      by_cases hk : a = k
      · subst hk; simp [hp]
      · rw [if_neg hk]

theorem get?_select (keys : List String) (last : List (String × Entry)) (k : String) :
    Dict.get? (select keys last) k = if k ∈ keys then Dict.get? last k else none := by
  unfold select
  rw [get?_filter (fun k => keys.contains k)]
  by_cases h : k ∈ keys
  · rw [if_pos h, if_pos (List.contains_iff_mem.mpr h)]
  · rw [if_neg h, if_neg (fun hc => h (List.contains_iff_mem.mp hc))]

/-- Where a module's data comes from: its device's last update if it has the first query, else its parent's. -/
def Source (keys : List String) (last : List (String × Entry)) (parent : Option (List (String × Entry))) (src : List (String × Entry)) : Prop :=
  ∃ first, keys.head? = some first ∧
    ((Dict.has last first = true ∧ src = last) ∨ (Dict.has last first = false ∧ Dict.has src first = true ∧ parent = some src))

theorem data_source (keys optional : List String) (last : List (String × Entry)) (parent : Option (List (String × Entry))) (src : List (String × Entry))
    (h : Source keys last parent src) : data keys optional last parent = dataOf keys optional src := by
  obtain ⟨first, hk, h⟩ := h
  cases keys with
  | nil => cases hk
  | cons a rest =>
    cases hk
    change (if Dict.has last first then _ else _) = _
    rcases h with ⟨h1, h2⟩ | ⟨h1, h2, h3⟩
    · rw [if_pos h1, h2]
    · rw [h1, if_neg (by decide), h3]
      simp only
      rw [if_pos h2]

/-- C45: a module without a query reads the device info; one whose first query has no answer, neither for its device nor for the
parent, raises KasaException. -/
theorem C45_no_data (keys optional : List String) (last : List (String × Entry)) (parent : Option (List (String × Entry))) :
    data [] optional last parent = .ok .sysInfo ∧
    (∀ first, keys.head? = some first → Dict.has last first = false → (∀ p, parent = some p → Dict.has p first = false) →
      data keys optional last parent = .error .kasa) := by
  refine ⟨rfl, ?_⟩
  intro first hk h1 h2
  cases keys with
  | nil => cases hk
  | cons a rest =>
    cases hk
    change (if Dict.has last first then _ else _) = _
    rw [h1, if_neg (by decide)]
    cases parent with
    | none => rfl
    | some p =>
      simp only
      rw [h2 p rfl, if_neg (by decide)]

/-- C45: a failed query that is not optional makes reading raise, with the code of such a query. -/
theorem C45_error (keys optional : List String) (last : List (String × Entry)) (parent : Option (List (String × Entry))) (src : List (String × Entry))
    (h : Source keys last parent src) (hwf : Dict.WF src) (k : String) (c : Int) (hk : k ∈ keys) (hg : Dict.get? src k = some (.error c))
    (ho : k ∉ optional) :
    ∃ k' c', k' ∈ keys ∧ Dict.get? src k' = some (.error c') ∧ k' ∉ optional ∧ data keys optional last parent = .error (.device (some c')) := by
  rw [data_source keys optional last parent src h]
  have hm : (k, Entry.error c) ∈ select keys src := by
    unfold select
    exact List.mem_filter.mpr ⟨Dict.mem_of_get? hg, List.contains_iff_mem.mpr hk⟩
  obtain ⟨k', c', a, b, e⟩ := (removable_spec optional (select keys src)).2 k c hm ho
  unfold select at a
  rw [List.mem_filter] at a
  refine ⟨k', c', List.contains_iff_mem.mp a.2, Dict.get?_of_mem hwf a.1, b, ?_⟩
  unfold dataOf
  rw [e]
  rfl

theorem select_absent (src : List (String × Entry)) (k : String) (h : Dict.get? src k = none) : select [k] src = [] := by
  unfold select
  rw [List.filter_eq_nil_iff]
  intro p hp hc
  have : p.1 = k := by simpa using hc
  exact (Dict.get?_eq_none_iff.mp h) (by rw [← this]; exact List.mem_map_of_mem hp)

theorem select_one (src : List (String × Entry)) (k : String) (v : Entry) (hwf : Dict.WF src) (h : Dict.get? src k = some v) :
    select [k] src = [(k, v)] := by
  induction src with
  | nil => cases h
  | cons p rest ih =>
    obtain ⟨a, b⟩ := p
    have hwf' := Dict.WF_cons.mp hwf
    rw [Dict.get?_cons] at h
    by_cases hk : a = k
    · rw [if_pos hk] at h
      cases h
      subst hk
      have hno : Dict.get? rest a = none := Dict.get?_eq_none_iff.mpr hwf'.1
      have := select_absent rest a hno
      unfold select at this ⊢
      rw [List.filter_cons_of_pos (by simp), this]
    · rw [if_neg hk] at h
      have := ih hwf'.2 h
      unfold select at this ⊢
      rw [List.filter_cons_of_neg (by simp [hk]), this]

/-- The answers to a module's queries that are no errors. -/
def Answers (keys : List String) (src d : List (String × Entry)) : Prop :=
  ∀ k v, Dict.get? d k = some v ↔ k ∈ keys ∧ Dict.get? src k = some v ∧ errorCode v = none

/-- C45: otherwise reading gives exactly the answers to the module's queries that are no errors: the single answer itself if the
module has one query and it was answered, a dict of them if it has several.  Missing: modules of which some queries have no entry at
all, see `C45_lone_answer`. -/
theorem C45_answers_partial (keys optional : List String) (last : List (String × Entry)) (parent : Option (List (String × Entry))) (src : List (String × Entry))
    (h : Source keys last parent src) (hwf : Dict.WF src) (hn : keys.Nodup) (hall : ∀ k ∈ keys, Dict.has src k = true)
    (hopt : ∀ k ∈ keys, ∀ c, Dict.get? src k = some (.error c) → k ∈ optional) :
    ∃ d, Answers keys src d ∧
      ((∀ k, keys = [k] → ∀ v, Dict.get? src k = some v → errorCode v = none → data keys optional last parent = .ok (.bare v)) ∧
       (∀ k, keys = [k] → ∀ c, Dict.get? src k = some (.error c) → data keys optional last parent = .ok (.dict [])) ∧
       (keys.length ≥ 2 → data keys optional last parent = .ok (.dict d))) := by
  have hrem : removable optional (select keys src) = .ok (((select keys src).filter (fun p => (errorCode p.2).isSome)).map (·.1)) := by
    apply (removable_spec optional _).1
    intro k c hm
    unfold select at hm
    rw [List.mem_filter] at hm
    exact hopt k (List.contains_iff_mem.mp hm.2) c (Dict.get?_of_mem hwf hm.1)
  rw [data_source keys optional last parent src h]
  have hdata : dataOf keys optional src =
      .ok (unwrap (select keys src) (((select keys src).filter (fun p => (errorCode p.2).isSome)).map (·.1))) := by
    unfold dataOf
    rw [hrem]
    rfl
  rw [hdata]
  generalize hR : ((select keys src).filter (fun p => (errorCode p.2).isSome)).map (·.1) = R
  have hR' : ∀ k, k ∈ R ↔ ∃ v, (k, v) ∈ select keys src ∧ (errorCode v).isSome = true := by
    intro k
    rw [← hR, List.mem_map]
    constructor
    · rintro ⟨⟨a, b⟩, hm, rfl⟩
      exact ⟨b, List.mem_filter.mp hm⟩
    · rintro ⟨v, hm, he⟩
      exact ⟨(k, v), List.mem_filter.mpr ⟨hm, he⟩, rfl⟩
  have hsel : ∀ k v, (k, v) ∈ select keys src ↔ k ∈ keys ∧ Dict.get? src k = some v := by
    intro k v
    unfold select
    rw [List.mem_filter]
    constructor
    · rintro ⟨a, b⟩
      exact ⟨List.contains_iff_mem.mp b, Dict.get?_of_mem hwf a⟩
    · rintro ⟨a, b⟩
      exact ⟨Dict.mem_of_get? b, List.contains_iff_mem.mpr a⟩
  refine ⟨(select keys src).filter (fun p => !R.contains p.1), ?_, ?_, ?_, ?_⟩
  · intro k v
    rw [get?_filter (fun k => !R.contains k), get?_select]
    by_cases hr : k ∈ R
    · rw [show (!R.contains k) = false by simp [hr], if_neg (by decide)]
      obtain ⟨w, hw, he⟩ := (hR' k).mp hr
      obtain ⟨_, hw⟩ := (hsel k w).mp hw
      constructor
      · intro hc; cases hc
      · rintro ⟨_, h2, h3⟩
        rw [hw] at h2
        cases h2
        rw [h3] at he
        cases he
    · rw [show (!R.contains k) = true by simp [hr], if_pos rfl]
      by_cases hk : k ∈ keys
      · rw [if_pos hk]
        constructor
        · intro hg
          refine ⟨hk, hg, ?_⟩
          cases he : errorCode v with
          | none => rfl
          | some c => exact absurd ((hR' k).mpr ⟨v, (hsel k v).mpr ⟨hk, hg⟩, by rw [he]; rfl⟩) hr
        · exact fun h => h.2.1
      · rw [if_neg hk]
        constructor
        · intro hc; cases hc
        · exact fun h => absurd h.1 hk
  · intro k hkk v hg he
    subst hkk
    have hone := select_one src k v hwf hg
    have hR0 : R = [] := by
      rw [← hR, hone]
      simp [he]
    rw [hone, hR0]
    rfl
  · intro k hkk c hg
    subst hkk
    have hone := select_one src k _ hwf hg
    have hR0 : R = [k] := by
      rw [← hR, hone]
      rfl
    rw [hone, hR0]
    simp [unwrap]
  · intro hlen
    unfold unwrap
    simp only
    split
    · rename_i p heq
      exfalso
      have hsub : ∀ k ∈ keys, k = p.1 := by
        intro k hk
        obtain ⟨v, hv⟩ := (has_iff_get src k).mp (hall k hk)
        have hm := (hsel k v).mpr ⟨hk, hv⟩
        have hm' : (k, v) ∈ (select keys src).filter (fun p => !([] : List String).contains p.1) := List.mem_filter.mpr ⟨hm, rfl⟩
        rw [heq] at hm'
        exact congrArg Prod.fst (List.mem_singleton.mp hm')
      match keys, hlen, hn, hsub with
      | a :: b :: r, _, hn, hsub =>
        have h1 := hsub a (by simp)
        have h2 := hsub b (by simp)
        rw [h1, h2] at hn
        simp at hn
    · rfl

/-- C45 is false when only one of several queries has an entry: reading gives that answer alone, not a dict, although the module has
several queries. -/
theorem C45_lone_answer (a b : String) (optional : List String) (v : Json) (_hab : a ≠ b) :
    data [a, b] optional [(a, .value v)] none = .ok (.bare (.value v)) := by
  change (if Dict.has [(a, Entry.value v)] a then _ else _) = _
  rw [if_pos (by simp [Dict.has, Dict.get?])]
  simp [dataOf, select, removable, errorCode, unwrap, bind, Except.bind, pure, Except.pure]

example : data ["get_energy_usage", "get_current_power"] ["get_current_power"]
    [("get_device_info", .value .null), ("get_energy_usage", .value (.num 1)), ("get_current_power", .error (-1))] none
    = .ok (.dict [("get_energy_usage", .value (.num 1))]) := by rfl

/-- C45 for cameras: reading raises with the device's code if the query failed and KasaException if there is nothing, and otherwise
gives the section named after the module, or the whole answer if there is no such section. -/
theorem C45_camera (getter module : String) (k : String) (last : List (String × Entry)) :
    (∀ c, Dict.get? last getter = some (.error c) → camData getter module [k] last = .error (.device (some c))) ∧
    (Dict.get? last getter = none → camData getter module [k] last = .error .kasa) ∧
    (∀ kvs sect, Dict.get? last getter = some (.value (.obj kvs)) → Dict.get? kvs module = some sect →
      camData getter module [k] last = .ok (.bare sect)) ∧
    (∀ kvs, Dict.get? last getter = some (.value (.obj kvs)) → kvs ≠ [] → Dict.get? kvs module = none →
      camData getter module [k] last = .ok (.bare (.obj kvs))) := by
  refine ⟨?_, ?_, ?_, ?_⟩
  · intro c h
    unfold camData
    simp only [h]
  · intro h
    unfold camData
    simp only [h]
  · intro kvs sect h hs
    have ht : (Json.obj kvs).truthy = true := by
      cases kvs with
      | nil => cases hs
      | cons a r => rfl
    unfold camData
    simp only [h]
    rw [if_pos ht]
    unfold camSection
    simp only [hs]
    rfl
  · intro kvs h hne hs
    have ht : (Json.obj kvs).truthy = true := by
      cases kvs with
      | nil => exact absurd rfl hne
      | cons a r => rfl
    unfold camData
    simp only [h]
    rw [if_pos ht]
    unfold camSection
    simp only [hs]
    rfl

theorem camCheck_ok_iff (last : List (String × Entry)) (keys : List String) :
    camCheck last keys = .ok () ↔ ∀ k ∈ keys, ∃ v, Dict.get? last k = some (.value v) := by
  induction keys with
  | nil => simp [camCheck]
  | cons a r ih =>
    unfold camCheck
    cases h : Dict.get? last a with
    | none => simp [h]
    | some e =>
      cases e with
      | error c => simp [h]
      | value v => simp [h, ih]

theorem camCheck_error (last : List (String × Entry)) (keys : List String) (e : Exc) (h : camCheck last keys = .error e) :
    ∃ k ∈ keys, (Dict.get? last k = none ∧ e = .kasa) ∨ (∃ c, Dict.get? last k = some (.error c) ∧ e = .device (some c)) := by
  induction keys with
  | nil => cases h
  | cons a r ih =>
    unfold camCheck at h
    cases hg : Dict.get? last a with
    | none =>
      simp only [hg] at h
      cases h
      exact ⟨a, List.mem_cons_self, Or.inl ⟨hg, rfl⟩⟩
    | some x =>
      cases x with
      | error c =>
        simp only [hg] at h
        cases h
        exact ⟨a, List.mem_cons_self, Or.inr ⟨c, hg, rfl⟩⟩
      | value v =>
        simp only [hg] at h
        obtain ⟨k, hk, h⟩ := ih h
        exact ⟨k, List.mem_cons_of_mem _ hk, h⟩

/-- C45 for cameras with several queries: reading gives all their answers if there is one for each, and raises otherwise, with the
code of a failed query or KasaException for a missing one. -/
theorem C45_camera_several (getter module : String) (a b : String) (r : List String) (last : List (String × Entry)) (keys : List String)
    (hk : keys = a :: b :: r) :
    ((∀ k ∈ keys, ∃ v, Dict.get? last k = some (.value v)) →
      ∃ d, camData getter module keys last = .ok (.dict d) ∧ ∀ k, Dict.get? d k = if k ∈ keys then Dict.get? last k else none) ∧
    ((∃ k ∈ keys, ¬ ∃ v, Dict.get? last k = some (.value v)) →
      ∃ k ∈ keys, (Dict.get? last k = none ∧ camData getter module keys last = .error .kasa) ∨
        (∃ c, Dict.get? last k = some (.error c) ∧ camData getter module keys last = .error (.device (some c)))) := by
  have hc : camData getter module keys last = (camCheck last keys).map (fun _ => .dict (select keys last)) := by rw [hk]; rfl
  constructor
  · intro h
    refine ⟨select keys last, ?_, get?_select keys last⟩
    rw [hc, (camCheck_ok_iff last keys).mpr h]
    rfl
  · rintro ⟨k, hk1, hk2⟩
    cases hch : camCheck last keys with
    | ok u => exact absurd ((camCheck_ok_iff last keys).mp hch k hk1) hk2
    | error e =>
      obtain ⟨k', hk', h⟩ := camCheck_error last keys e hch
      refine ⟨k', hk', ?_⟩
      rw [hc, hch]
      rcases h with ⟨h1, h2⟩ | ⟨c, h1, h2⟩
      · exact Or.inl ⟨h1, by rw [h2]; rfl⟩
      · exact Or.inr ⟨c, h1, by rw [h2]; rfl⟩

/-- C45 for legacy devices: a module with a query reads exactly the last answer under its name, and raises KasaException if there is
none; one without reads the device info. -/
theorem C45_legacy (module : String) (last : List (String × Json)) :
    (∀ v, iotData true module last = .ok (some v) ↔ Dict.get? last module = some v) ∧
    (Dict.get? last module = none → iotData true module last = .error .kasa) ∧
    iotData false module last = .ok none := by
  refine ⟨?_, ?_, rfl⟩
  · intro v
    unfold iotData
    cases h : Dict.get? last module <;> simp [h]
  · intro h
    unfold iotData
    simp [h]

end Kasa.SmartModule
