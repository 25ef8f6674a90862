/-!
# Python dictionaries

A Python `dict` keeps its keys in insertion order, overwriting keeps the position.  It is modelled as an
association list; `WF` (no key twice) is preserved by every operation.
-/

set_option linter.unusedSectionVars false

namespace Kasa

/-- A Python dict: key/value pairs in insertion order. -/
abbrev Dict (α β : Type) := List (α × β)

namespace Dict

variable {α β : Type} [DecidableEq α]

/-- `d.get(k)`. -/
def get? : Dict α β → α → Option β
  | [], _ => none
  | (k, v) :: d, x => if k = x then some v else get? d x

/-- `d[k] = v`. -/
def set : Dict α β → α → β → Dict α β
  | [], x, y => [(x, y)]
  | (k, v) :: d, x, y => if k = x then (k, y) :: d else (k, v) :: set d x y

/-- `del d[k]` / `d.pop(k, None)`. -/
def erase : Dict α β → α → Dict α β
  | [], _ => []
  | (k, v) :: d, x => if k = x then d else (k, v) :: erase d x

/-- `list(d)`. -/
def keys (d : Dict α β) : List α := d.map Prod.fst

/-- `k in d`. -/
def has (d : Dict α β) (k : α) : Bool := (d.get? k).isSome

/-- `d.update(e)` / `d | e`. -/
def update (d e : Dict α β) : Dict α β := e.foldl (fun d kv => d.set kv.1 kv.2) d

/-- No key occurs twice: what every real Python dict satisfies. -/
def WF (d : Dict α β) : Prop := d.keys.Nodup

@[simp] theorem get?_nil (x : α) : get? ([] : Dict α β) x = none := rfl
@[simp] theorem keys_nil : keys ([] : Dict α β) = [] := rfl
@[simp] theorem keys_cons (p : α × β) (d : Dict α β) : keys (p :: d) = p.1 :: keys d := rfl
@[simp] theorem WF_nil : WF ([] : Dict α β) := List.nodup_nil

theorem get?_cons (p : α × β) (d : Dict α β) (x : α) :
    get? (p :: d) x = if p.1 = x then some p.2 else get? d x := by
  obtain ⟨k, v⟩ := p; rfl

theorem WF_cons {p : α × β} {d : Dict α β} : WF (p :: d) ↔ p.1 ∉ d.keys ∧ WF d := by
  simp [WF]

theorem get?_eq_none_iff {d : Dict α β} {x : α} : d.get? x = none ↔ x ∉ d.keys := by
  induction d with
  | nil => simp
  | cons p d ih =>
    rw [get?_cons, keys_cons]
    by_cases h : p.1 = x
    · simp [h]
    · simp only [h, if_false, List.mem_cons, not_or, ih]
      exact ⟨fun hx => ⟨fun e => h e.symm, hx⟩, fun hx => hx.2⟩

theorem has_iff {d : Dict α β} {x : α} : d.has x = true ↔ x ∈ d.keys := by
  have h := get?_eq_none_iff (d := d) (x := x)
  unfold has
  cases hx : d.get? x with
  | none => simp [h.mp hx]
  | some v =>
    simp only [Option.isSome_some, true_iff]
    by_cases hm : x ∈ d.keys
    · exact hm
    · rw [h.mpr hm] at hx; cases hx

theorem has_eq_false_iff {d : Dict α β} {x : α} : d.has x = false ↔ x ∉ d.keys := by
  rw [← has_iff]; simp

theorem mem_of_get? {d : Dict α β} {x : α} {v : β} (h : d.get? x = some v) : (x, v) ∈ d := by
  induction d with
  | nil => simp at h
  | cons p d ih =>
    rw [get?_cons] at h
    by_cases hp : p.1 = x
    · simp only [hp, if_true, Option.some.injEq] at h
      have : p = (x, v) := by obtain ⟨a, b⟩ := p; simp_all
      simp [this]
    · simp only [hp, if_false] at h
      exact List.mem_cons_of_mem _ (ih h)

theorem get?_of_mem {d : Dict α β} (hd : d.WF) {x : α} {v : β} (h : (x, v) ∈ d) :
    d.get? x = some v := by
  induction d with
  | nil => simp at h
  | cons p d ih =>
    rw [get?_cons]
    rw [WF_cons] at hd
    rcases List.mem_cons.mp h with h | h
    · subst h; simp
    · have : p.1 ≠ x := by
        intro e
        apply hd.1
        rw [e]
        exact List.mem_map.mpr ⟨_, h, rfl⟩
      simp [this, ih hd.2 h]

theorem get?_eq_some_iff {d : Dict α β} (hd : d.WF) {x : α} {v : β} :
    d.get? x = some v ↔ (x, v) ∈ d := ⟨mem_of_get?, get?_of_mem hd⟩

@[simp] theorem get?_set_self (d : Dict α β) (x : α) (y : β) : (d.set x y).get? x = some y := by
  induction d with
  | nil => simp [set, get?]
  | cons p d ih =>
    obtain ⟨k, v⟩ := p
    unfold set
    by_cases h : k = x
    · simp [h, get?]
    · simp [h, get?, ih]

theorem get?_set_ne (d : Dict α β) {x z : α} (y : β) (h : x ≠ z) :
    (d.set x y).get? z = d.get? z := by
  induction d with
  | nil => simp [set, get?, h]
  | cons p d ih =>
    obtain ⟨k, v⟩ := p
    unfold set
    by_cases hk : k = x
    · subst hk; simp [get?, h]
    · simp only [hk, if_false, get?_cons, ih]

theorem get?_set (d : Dict α β) (x z : α) (y : β) :
    (d.set x y).get? z = if x = z then some y else d.get? z := by
  by_cases h : x = z
  · subst h; simp
  · simp [h, get?_set_ne d y h]

theorem keys_set (d : Dict α β) (x : α) (y : β) :
    (d.set x y).keys = if x ∈ d.keys then d.keys else d.keys ++ [x] := by
  induction d with
  | nil => simp [set]
  | cons p d ih =>
    obtain ⟨k, v⟩ := p
    unfold set
    by_cases hk : k = x
    · subst hk; simp
    · have : ¬ x = k := fun e => hk e.symm
      simp only [hk, if_false, keys_cons, ih, List.mem_cons, this, false_or]
      split <;> simp

theorem mem_keys_set (d : Dict α β) (x z : α) (y : β) :
    z ∈ (d.set x y).keys ↔ z = x ∨ z ∈ d.keys := by
  rw [keys_set]
  split
  · rename_i h; constructor
    · exact fun hz => Or.inr hz
    · rintro (rfl | hz)
      · exact h
      · exact hz
  · simp [or_comm]

theorem WF_set {d : Dict α β} (hd : d.WF) (x : α) (y : β) : (d.set x y).WF := by
  unfold WF
  rw [keys_set]
  split
  · exact hd
  · rename_i h
    rw [List.nodup_append]
    refine ⟨hd, by simp, ?_⟩
    intro a ha b hb
    simp at hb
    subst hb
    intro e; subst e; exact h ha

theorem set_append_of_not_mem {d : Dict α β} {x : α} (y : β) (h : x ∉ d.keys) :
    d.set x y = d ++ [(x, y)] := by
  induction d with
  | nil => rfl
  | cons p d ih =>
    obtain ⟨k, v⟩ := p
    simp only [keys_cons, List.mem_cons, not_or] at h
    have hk : ¬ k = x := fun e => h.1 e.symm
    simp [set, hk, ih h.2]

theorem WF_update {d e : Dict α β} (hd : d.WF) : (d.update e).WF := by
  unfold update
  induction e generalizing d with
  | nil => exact hd
  | cons p e ih => exact ih (WF_set hd _ _)

theorem mem_keys_update (d e : Dict α β) (z : α) :
    z ∈ (d.update e).keys ↔ z ∈ d.keys ∨ z ∈ e.keys := by
  unfold update
  induction e generalizing d with
  | nil => simp
  | cons p e ih =>
    rw [List.foldl_cons, ih, mem_keys_set, keys_cons, List.mem_cons]
    constructor
    · rintro ((h | h) | h)
      · exact Or.inr (Or.inl h)
      · exact Or.inl h
      · exact Or.inr (Or.inr h)
    · rintro (h | h | h)
      · exact Or.inl (Or.inr h)
      · exact Or.inl (Or.inl h)
      · exact Or.inr h

/-- Looking a key up after `update`: the right-hand dict wins. -/
theorem get?_update {d e : Dict α β} (he : e.WF) (z : α) :
    (d.update e).get? z = (e.get? z).or (d.get? z) := by
  unfold update
  induction e generalizing d with
  | nil => simp
  | cons p e ih =>
    rw [WF_cons] at he
    rw [List.foldl_cons, ih he.2, get?_cons, get?_set]
    by_cases h : p.1 = z
    · have : Dict.get? e z = none := by rw [get?_eq_none_iff]; rw [← h]; exact he.1
      simp [h, this]
    · simp [h]

theorem get?_append (d e : Dict α β) (z : α) :
    get? (d ++ e) z = (d.get? z).or (e.get? z) := by
  induction d with
  | nil => simp
  | cons p d ih =>
    rw [List.cons_append, get?_cons, get?_cons, ih]
    by_cases h : p.1 = z <;> simp [h]

theorem keys_append (d e : Dict α β) : keys (d ++ e) = keys d ++ keys e := by
  simp [keys]

theorem get?_erase_ne (d : Dict α β) {x z : α} (h : x ≠ z) : (d.erase x).get? z = d.get? z := by
  induction d with
  | nil => rfl
  | cons p d ih =>
    obtain ⟨k, v⟩ := p
    unfold erase
    by_cases hk : k = x
    · subst hk; simp [get?, h]
    · simp only [hk, if_false, get?_cons, ih]

theorem get?_erase_self {d : Dict α β} (hd : d.WF) (x : α) : (d.erase x).get? x = none := by
  induction d with
  | nil => rfl
  | cons p d ih =>
    obtain ⟨k, v⟩ := p
    rw [WF_cons] at hd
    unfold erase
    by_cases hk : k = x
    · subst hk; simp only [if_true]; exact get?_eq_none_iff.mpr hd.1
    · simp only [hk, if_false, get?_cons, ih hd.2]

theorem erase_sublist (d : Dict α β) (x : α) : (d.erase x).Sublist d := by
  induction d with
  | nil => exact List.Sublist.slnil
  | cons p d ih =>
    obtain ⟨k, v⟩ := p
    unfold erase
    by_cases hk : k = x
    · simp [hk]
    · simp [hk, ih]

theorem WF_erase {d : Dict α β} (hd : d.WF) (x : α) : (d.erase x).WF :=
  List.Nodup.sublist ((erase_sublist d x).map _) hd

end Dict
end Kasa
