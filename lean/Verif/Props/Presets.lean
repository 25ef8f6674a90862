import Verif.Model.Presets
/-!
# C38: light presets
-/

namespace Kasa.Presets

open Lights (State)

/-! ## Names -/

theorem toString_inj {m n : Nat} (h : toString m = toString n) : m = n := by
  have h1 : Nat.toDigits 10 m = Nat.toDigits 10 n := by
    rw [Nat.toString_eq_ofList_toDigits, Nat.toString_eq_ofList_toDigits] at h
    exact String.ofList_injective h
  have h2 := congrArg (fun l => Nat.ofDigitChars 10 l 0) h1
  simpa [Nat.ofDigitChars_toDigits] using h2

theorem append_inj (p : String) {a b : String} (h : p ++ a = p ++ b) : a = b := by
  apply String.toList_injective
  have := congrArg String.toList h
  simpa using this

theorem name_inj {i j : Nat} (h : name i = name j) : i = j := by
  have := toString_inj (append_inj _ h)
  omega

theorem brightnessName_inj {i j : Nat} (h : brightnessName i = brightnessName j) : i = j := by
  have := toString_inj (append_inj _ h)
  omega

/-! ## Legacy devices -/

theorem keys_readFrom_ge (i : Nat) (slots : List Slot) : ∀ k ∈ Dict.keys (readFrom i slots), ∃ j, i ≤ j ∧ k = name j := by
  induction slots generalizing i with
  | nil => intro k hk; cases hk
  | cons x rest ih =>
    intro k hk
    cases x with
    | effect => obtain ⟨j, h1, h2⟩ := ih (i + 1) k hk; exact ⟨j, by omega, h2⟩
    | preset s =>
      rcases List.mem_cons.mp hk with hk | hk
      · exact ⟨i, Nat.le_refl _, hk⟩
      · obtain ⟨j, h1, h2⟩ := ih (i + 1) k hk; exact ⟨j, by omega, h2⟩

theorem get?_readFrom (i : Nat) (slots : List Slot) (n : Nat) (s : State) :
    Dict.get? (readFrom i slots) (name (i + n)) = some s ↔ slots[n]? = some (.preset s) := by
  induction slots generalizing i n with
  | nil => simp [readFrom, Dict.get?]
  | cons x rest ih =>
    cases n with
    | zero =>
      cases x with
      | effect =>
        simp only [readFrom, Nat.add_zero, List.getElem?_cons_zero]
        constructor
        · intro h
          obtain ⟨j, h1, h2⟩ := keys_readFrom_ge (i + 1) rest (name i) (Dict.has_iff.mp (by unfold Dict.has; rw [h]; rfl))
          have := name_inj h2
          omega
        · intro h; cases h
      | preset s' =>
        simp only [readFrom, Nat.add_zero, List.getElem?_cons_zero, Dict.get?_cons, if_true]
        constructor
        · intro h; cases h; rfl
        · intro h; cases h; rfl
    | succ n =>
      have hi : i + (n + 1) = (i + 1) + n := by omega
      cases x with
      | effect =>
        simp only [readFrom, List.getElem?_cons_succ]
        rw [hi]
        exact ih (i + 1) n
      | preset s' =>
        simp only [readFrom, List.getElem?_cons_succ]
        rw [Dict.get?_cons, if_neg (fun h => by have := name_inj h; omega), hi]
        exact ih (i + 1) n

/-- C38, legacy: the preset in slot `n`, counted from 0, is called "Light preset n+1"; slots with effects have no name; there
are no other names. -/
theorem C38_names (slots : List Slot) :
    (∀ n s, Dict.get? (read slots) ("Light preset " ++ toString (n + 1)) = some s ↔ slots[n]? = some (.preset s)) ∧
    (∀ k ∈ Dict.keys (read slots), ∃ n, k = "Light preset " ++ toString (n + 1)) := by
  constructor
  · intro n s
    have := get?_readFrom 0 slots n s
    rw [Nat.zero_add] at this
    exact this
  · intro k hk
    obtain ⟨j, -, h⟩ := keys_readFrom_ge 0 slots k hk
    exact ⟨j, h⟩

/-- The number of presets among the first `n` slots. -/
def presetsBefore (slots : List Slot) (n : Nat) : Nat := ((slots.take n).filter Slot.isPreset).length

theorem position_readFrom (i : Nat) (slots : List Slot) (n : Nat) (s : State) (h : slots[n]? = some (.preset s)) :
    position (name (i + n)) (Dict.keys (readFrom i slots)) = some (presetsBefore slots n) := by
  unfold presetsBefore
  induction slots generalizing i n with
  | nil => simp at h
  | cons x rest ih =>
    cases n with
    | zero =>
      simp only [List.getElem?_cons_zero, Option.some.injEq] at h
      subst h
      simp [readFrom, Dict.keys, position]
    | succ n =>
      simp only [List.getElem?_cons_succ] at h
      have hi : i + (n + 1) = (i + 1) + n := by omega
      cases x with
      | effect =>
        simp only [readFrom, List.take_succ_cons]
        rw [hi, ih (i + 1) n h]
        simp [Slot.isPreset]
      | preset s' =>
        simp only [readFrom, List.take_succ_cons]
        have hne : name i ≠ name (i + (n + 1)) := fun h => by have := name_inj h; omega
        rw [Dict.keys_cons]
        unfold position
        rw [if_neg hne, hi, ih (i + 1) n h, List.filter_cons_of_pos rfl]
        rfl

theorem position_none (x : String) (l : List String) : position x l = none ↔ x ∉ l := by
  induction l with
  | nil => simp [position]
  | cons y ys ih =>
    unfold position
    by_cases h : y = x
    · simp [h]
    · rw [if_neg h, Option.map_eq_none_iff, ih, List.mem_cons]
      exact ⟨fun h1 h2 => h2.elim (fun h3 => h h3.symm) h1, fun h1 h2 => h1 (Or.inr h2)⟩

theorem fields_index (s : State) (v : PyV) (k : String) (hk : k ≠ "index") : Dict.get? (Dict.set (fields s) "index" v) k = Dict.get? (fields s) k :=
  Dict.get?_set_ne _ _ (fun h => hk h.symm)

theorem presetsBefore_le (slots : List Slot) (n : Nat) (hn : n ≤ slots.length) :
    presetsBefore slots n ≤ n ∧ (presetsBefore slots n = n ↔ ∀ m x, m < n → slots[m]? = some x → x.isPreset = true) := by
  have hl : (slots.take n).length = n := by simp [hn]
  unfold presetsBefore
  constructor
  · have := List.length_filter_le Slot.isPreset (slots.take n); omega
  · constructor
    · intro h m x hm hx
      have : (slots.take n).filter Slot.isPreset = slots.take n := by
        apply List.Sublist.eq_of_length List.filter_sublist
        omega
      have hmem : x ∈ slots.take n := List.mem_of_getElem? (i := m) (by rw [List.getElem?_take_of_lt hm]; exact hx)
      rw [← this] at hmem
      exact (List.mem_filter.mp hmem).2
    · intro h
      have : (slots.take n).filter Slot.isPreset = slots.take n := by
        apply List.filter_eq_self.mpr
        intro x hx
        obtain ⟨m, hm⟩ := List.getElem?_of_mem hx
        have hlt : m < n := by
          have := (List.getElem?_eq_some_iff.mp hm).1
          omega
        exact h m x hlt (by rw [← hm, List.getElem?_take_of_lt hlt])
      rw [this, hl]

def saveCommand (service : String) (slots : List Slot) (n : Nat) (s : State) : Command :=
  ⟨service, "set_preferred_state", Dict.set (fields s) "index" (.num (.int (presetsBefore slots n)))⟩

/-- C38, legacy: saving a preset sends the new state with the number of presets in the slots before it as the index; that is its
slot exactly if no effect is stored before it.  Missing: lists with effects before it, see `C38_wrong_slot`. -/
theorem C38_save_partial (service : String) (slots : List Slot) (n : Nat) (old s : State) (h : slots[n]? = some (.preset old)) :
    ∃ c index, save service (read slots) (name n) s = .ok c ∧ c.target = service ∧ c.method = "set_preferred_state" ∧
      Dict.get? c.params "index" = some (.num (.int index)) ∧ (∀ k, k ≠ "index" → Dict.get? c.params k = Dict.get? (fields s) k) ∧
      ((∀ m x, m < n → slots[m]? = some x → x.isPreset = true) → index = n) := by
  have hp := position_readFrom 0 slots n old h
  rw [Nat.zero_add] at hp
  have hne : (read slots).isEmpty = false := by
    cases hr : read slots with
    | nil =>
      unfold read at hr
      rw [hr] at hp
      simp [Dict.keys, position] at hp
    | cons a b => rfl
  refine ⟨saveCommand service slots n s, presetsBefore slots n, ?_, rfl, rfl, Dict.get?_set_self _ _ _, fun k hk => fields_index s _ k hk, ?_⟩
  · unfold save
    rw [hne]
    simp only [Bool.false_eq_true, if_false]
    unfold read
    rw [hp]
    rfl
  · intro he
    have hlt := (List.getElem?_eq_some_iff.mp h).1
    have := (presetsBefore_le slots n (by omega)).2.mpr he
    omega

/-- C38 is false of legacy devices that store an effect before the preset: another, lower slot is written. -/
theorem C38_wrong_slot (service : String) (slots : List Slot) (n m : Nat) (old s : State) (h : slots[n]? = some (.preset old))
    (hm : m < n) (he : slots[m]? = some .effect) :
    ∃ c index, save service (read slots) (name n) s = .ok c ∧ Dict.get? c.params "index" = some (.num (.int index)) ∧ index < n := by
  have hp := position_readFrom 0 slots n old h
  rw [Nat.zero_add] at hp
  have hne : (read slots).isEmpty = false := by
    cases hr : read slots with
    | nil =>
      unfold read at hr
      rw [hr] at hp
      simp [Dict.keys, position] at hp
    | cons a b => rfl
  refine ⟨saveCommand service slots n s, presetsBefore slots n, ?_, Dict.get?_set_self _ _ _, ?_⟩
  · unfold save
    rw [hne]
    simp only [Bool.false_eq_true, if_false]
    unfold read
    rw [hp]
    rfl
  · have hlt := (List.getElem?_eq_some_iff.mp h).1
    obtain ⟨h1, h2⟩ := presetsBefore_le slots n (by omega)
    have : presetsBefore slots n ≠ n := by
      intro heq
      have := h2.mp heq m .effect hm he
      cases this
    omega

/-- C38: an unknown name is refused, by both kinds of devices. -/
theorem C38_unknown (service : String) (presets : List (String × State)) (m : Module) (n : String) (s : State) :
    (presets = [] → save service presets n s = .error .kasa) ∧
    (presets ≠ [] → n ∉ Dict.keys presets → save service presets n s = .error (.other "ValueError")) ∧
    (n ∉ Dict.keys m.presets → smartSave m n s = .error (.other "ValueError")) := by
  refine ⟨?_, ?_, ?_⟩
  · intro h; rw [h]; rfl
  · intro h1 h2
    unfold save
    rw [(position_none _ _).mpr h2]
    cases presets with
    | nil => exact absurd rfl h1
    | cons a b => rfl
  · intro h
    unfold smartSave
    rw [(position_none _ _).mpr h]

/-- Writing a slot of the stored list. -/
def write (slots : List Slot) (index : Nat) (s : State) : List Slot := slots.set index (.preset s)

/-- C38, legacy: on a list without effects, after saving and reading again, the named preset is the new one and every other is
as before. -/
theorem C38_round_trip_partial (service : String) (slots : List Slot) (n : Nat) (old s : State) (h : slots[n]? = some (.preset old))
    (he : ∀ x ∈ slots, x.isPreset = true) :
    ∃ c index, save service (read slots) (name n) s = .ok c ∧ Dict.get? c.params "index" = some (.num (.int (index : Nat))) ∧
      Dict.get? (read (write slots index s)) (name n) = some s ∧
      ∀ m, m ≠ n → Dict.get? (read (write slots index s)) (name m) = Dict.get? (read slots) (name m) := by
  obtain ⟨c, index, h1, -, -, h2, -, h3⟩ := C38_save_partial service slots n old s h
  have hidx : index = n := h3 (fun m x _ hx => he x (List.mem_of_getElem? hx))
  subst hidx
  have hlt := (List.getElem?_eq_some_iff.mp h).1
  have hget := fun sl m s => (C38_names sl).1 m s
  refine ⟨c, n, h1, h2, ?_, ?_⟩
  · apply (hget _ n s).mpr
    unfold write
    simp [hlt]
  · intro m hm
    apply Option.ext
    intro v
    have hset : (write slots n s)[m]? = slots[m]? := by
      unfold write
      rw [List.getElem?_set_ne (fun h => hm h.symm)]
    exact (hget _ m v).trans ((by rw [hset]) : _ ↔ _) |>.trans (hget _ m v).symm

/-- C38: a preset is chosen by its name; the state that is set is the one stored under it. -/
theorem C38_choose (hasColor : Bool) (slots : List Slot) (n : Nat) (s : State) (h : slots[n]? = some (.preset s)) (k : String) :
    choose hasColor (read slots) (name n) = .ok s ∧
    (k ≠ "Not set" → k ∉ Dict.keys (read slots) → choose hasColor (read slots) k = .error (.other "ValueError")) := by
  constructor
  · unfold choose
    have hne : name n ≠ "Not set" := by
      intro heq
      have := congrArg (fun s => s.toList.head?) heq
      simp [name] at this
    have hg : Dict.get? (read slots) (name n) = some s := ((C38_names slots).1 n s).mpr h
    rw [if_neg hne, hg]
  · intro h1 h2
    unfold choose
    rw [if_neg h1]
    have : Dict.get? (read slots) k = none := Dict.get?_eq_none_iff.mpr h2
    rw [this]

/-- C38: choosing "Not set" leaves every preset: the light is set to full brightness, and a light with colours to white too;
no stored preset can be taken for it. -/
theorem C38_not_set (slots : List Slot) :
    choose true (read slots) "Not set" =
        .ok { hue := some (.int 0), saturation := some (.int 0), brightness := some (.int 100) } ∧
      choose false (read slots) "Not set" = .ok { brightness := some (.int 100) } ∧
      "Not set" ∉ Dict.keys (read slots) := by
  refine ⟨rfl, rfl, fun h => ?_⟩
  obtain ⟨n, hn⟩ := (C38_names slots).2 _ h
  have := congrArg (fun s => s.toList.head?) hn
  simp at this

/-! ## Newer devices -/

theorem keys_smartFrom (i : Nat) (slots : List Slot) :
    Dict.keys (smartFrom i slots) = (List.range' i (slots.filter Slot.isPreset).length).map name := by
  induction slots generalizing i with
  | nil => rfl
  | cons x rest ih =>
    cases x with
    | effect => simp only [smartFrom, List.filter_cons, Slot.isPreset]; exact ih i
    | preset s =>
      simp only [smartFrom, List.filter_cons, Slot.isPreset, if_true, List.length_cons, List.range'_succ, List.map_cons,
        Dict.keys_cons, ih (i + 1)]

theorem position_range' (f : Nat → String) (hf : ∀ a b, f a = f b → a = b) (i len j : Nat) (h : j < len) :
    position (f (i + j)) ((List.range' i len).map f) = some j := by
  induction len generalizing i j with
  | zero => omega
  | succ len ih =>
    rw [List.range'_succ]
    simp only [List.map_cons]
    unfold position
    cases j with
    | zero => simp
    | succ j =>
      have hne : f i ≠ f (i + (j + 1)) := fun h => by have := hf _ _ h; omega
      rw [if_neg hne]
      have hi : i + (j + 1) = (i + 1) + j := by omega
      rw [hi, ih (i + 1) j (by omega)]
      rfl

theorem smartFrom_get (i : Nat) (slots : List Slot) (p : Nat) (s : State) (h : slots[p]? = some (.preset s)) :
    (smartFrom i slots)[presetsBefore slots p]? = some (name (i + presetsBefore slots p), s) := by
  unfold presetsBefore
  induction slots generalizing i p with
  | nil => simp at h
  | cons x rest ih =>
    cases p with
    | zero =>
      simp only [List.getElem?_cons_zero, Option.some.injEq] at h
      subst h
      simp [smartFrom]
    | succ p =>
      simp only [List.getElem?_cons_succ] at h
      cases x with
      | effect =>
        have := ih i p h
        simpa [smartFrom, Slot.isPreset] using this
      | preset s' =>
        have := ih (i + 1) p h
        simp only [smartFrom, List.take_succ_cons, List.filter_cons, Slot.isPreset, if_true, List.length_cons, List.getElem?_cons_succ]
        rw [this]
        congr 2
        congr 1
        omega

/-- C38, newer devices: the preset in slot `p` is called "Light preset k+1", with `k` the presets before it, and saving it sends
`k` as the index; that is its slot exactly if no effect is stored before it.  Missing: lists with effects before it, and lists
in which some preset has a brightness only, see `C38_smart_wrong_slot` and `C38_smart_mixed`. -/
theorem C38_smart_save_partial (m : Module) (slots : List Slot) (bs : List Num) (p : Nat) (old s : State)
    (h : slots[p]? = some (.preset old)) (hm : m.brightnessOnly = false) (ho : anyOnlyBrightness slots = false) :
    ∃ k : Nat, (smartUpdate m slots bs).presets[k]? = some ("Light preset " ++ toString (k + 1), old) ∧
      smartSave (smartUpdate m slots bs) ("Light preset " ++ toString (k + 1)) s =
        .ok ⟨"", "edit_preset_rules", [("index", .num (.int k)), ("state", .obj (fields s))]⟩ ∧
      (k = p ↔ ∀ q x, q < p → slots[q]? = some x → x.isPreset = true) := by
  have hlt := (List.getElem?_eq_some_iff.mp h).1
  have hne : slots.isEmpty = false := by cases slots with | nil => simp at h | cons a b => rfl
  have hu : smartUpdate m slots bs = ⟨smartFrom 0 slots, false⟩ := by
    unfold smartUpdate
    simp [hne, hm, ho]
  have hg := smartFrom_get 0 slots p old h
  rw [Nat.zero_add] at hg
  refine ⟨presetsBefore slots p, ?_, ?_, (presetsBefore_le slots p (by omega)).2⟩
  · rw [hu]; exact hg
  · rw [hu]
    unfold smartSave
    have hk : presetsBefore slots p < (slots.filter Slot.isPreset).length := by
      have := (List.getElem?_eq_some_iff.mp hg).1
      have hl : (smartFrom 0 slots).length = (slots.filter Slot.isPreset).length := by
        have := congrArg List.length (keys_smartFrom 0 slots)
        simpa [Dict.keys] using this
      omega
    have hpos := position_range' name (fun _ _ => name_inj) 0 _ _ hk
    rw [Nat.zero_add] at hpos
    simp only [keys_smartFrom]
    change (match position (name (presetsBefore slots p)) _ with | none => _ | some index => _) = _
    rw [hpos]
    rfl

/-- C38 is false of newer devices that store an effect before the preset: another, lower slot is written. -/
theorem C38_smart_wrong_slot (m : Module) (slots : List Slot) (bs : List Num) (p q : Nat) (old s : State)
    (h : slots[p]? = some (.preset old)) (hq : q < p) (he : slots[q]? = some .effect) (hm : m.brightnessOnly = false)
    (ho : anyOnlyBrightness slots = false) :
    ∃ k : Nat, (smartUpdate m slots bs).presets[k]? = some ("Light preset " ++ toString (k + 1), old) ∧
      smartSave (smartUpdate m slots bs) ("Light preset " ++ toString (k + 1)) s =
        .ok ⟨"", "edit_preset_rules", [("index", .num (.int k)), ("state", .obj (fields s))]⟩ ∧ k ≠ p := by
  obtain ⟨k, h1, h2, h3⟩ := C38_smart_save_partial m slots bs p old s h hm ho
  refine ⟨k, h1, h2, fun hk => ?_⟩
  have := h3.mp hk q .effect hq he
  cases this

theorem brightnessFrom_eq (i : Nat) (bs : List Num) : Dict.keys (brightnessFrom i bs) = (List.range' i bs.length).map brightnessName ∧
    (brightnessFrom i bs).map (fun p => brightnessValue p.2) = bs.map .num := by
  induction bs generalizing i with
  | nil => exact ⟨rfl, rfl⟩
  | cons b rest ih =>
    obtain ⟨h1, h2⟩ := ih (i + 1)
    constructor
    · simp only [brightnessFrom, Dict.keys_cons, h1, List.length_cons, List.range'_succ, List.map_cons]
    · simp only [brightnessFrom, List.map_cons, h2]
      rfl

/-- C38, newer lights with brightness presets: the whole list is sent, with that one replaced. -/
theorem C38_smart_brightness (m : Module) (bs : List Num) (k : Nat) (hk : k < bs.length) (s : State) (b : Num) (hb : s.brightness = some b) :
    smartSave (smartUpdate m [] bs) ("Brightness preset " ++ toString (k + 1)) s =
      .ok ⟨"", "set_preset_rules", [("brightness", .arr ((bs.set k b).map .num))]⟩ := by
  have hu : smartUpdate m [] bs = ⟨brightnessFrom 0 bs, true⟩ := by
    unfold smartUpdate
    cases bs with
    | nil => simp at hk
    | cons a r => rfl
  rw [hu]
  unfold smartSave
  obtain ⟨h1, h2⟩ := brightnessFrom_eq 0 bs
  have hpos := position_range' brightnessName (fun _ _ => brightnessName_inj) 0 bs.length k hk
  rw [Nat.zero_add] at hpos
  simp only [h1, h2]
  change (match position (brightnessName k) _ with | none => _ | some index => _) = _
  rw [hpos]
  simp only [if_true]
  rw [List.map_set]
  unfold brightnessValue
  rw [hb]

/-- C38 is false of a list in which some preset has a brightness only: saving any preset sends just the brightnesses, without
the colour that was to be saved, and without those of the others. -/
theorem C38_smart_mixed (m : Module) (slots : List Slot) (bs : List Num) (n : String) (s : State) (c : Command)
    (ho : anyOnlyBrightness slots = true) (h : smartSave (smartUpdate m slots bs) n s = .ok c) :
    c.method = "set_preset_rules" ∧ Dict.keys c.params = ["brightness"] := by
  have hne : slots.isEmpty = false := by cases slots with | nil => cases ho | cons a b => rfl
  have hu : smartUpdate m slots bs = ⟨smartFrom 0 slots, true⟩ := by
    unfold smartUpdate
    simp [hne, ho]
  rw [hu] at h
  unfold smartSave at h
  simp only [if_true] at h
  cases hp : position n (Dict.keys (smartFrom 0 slots)) with
  | none => rw [hp] at h; cases h
  | some i => rw [hp] at h; cases h; exact ⟨rfl, rfl⟩

/-! ## The current preset -/

theorem current_spec (test : State → Bool) (presets : List (String × State)) :
    (∃ (i : Nat) (n : String) (p : State), presets[i]? = some (n, p) ∧ test p = true ∧ current test presets = n ∧
      ∀ (j : Nat) n' p', j < i → presets[j]? = some (n', p') → test p' = false) ∨
    ((∀ x ∈ presets, test x.2 = false) ∧ current test presets = "Not set") := by
  induction presets with
  | nil => exact Or.inr ⟨fun x hx => (by cases hx), rfl⟩
  | cons x rest ih =>
    obtain ⟨n, p⟩ := x
    unfold current
    by_cases hp : test p = true
    · rw [if_pos hp]
      exact Or.inl ⟨0, n, p, rfl, hp, rfl, fun j _ _ hj => by omega⟩
    · rw [if_neg hp]
      rcases ih with ⟨i, n', p', h1, h2, h3, h4⟩ | ⟨h1, h2⟩
      · refine Or.inl ⟨i + 1, n', p', h1, h2, h3, ?_⟩
        intro j n2 p2 hj hg
        cases j with
        | zero =>
          cases hg
          exact Bool.eq_false_iff.mpr hp
        | succ j => exact h4 j n2 p2 (by omega) hg
      · refine Or.inr ⟨?_, h2⟩
        intro y hy
        rcases List.mem_cons.mp hy with hy | hy
        · subst hy; exact Bool.eq_false_iff.mpr hp
        · exact h1 y hy

/-- Equal numbers; neither may be NaN. -/
def Equal (a b : Option Num) : Prop := (a = none ∧ b = none) ∨ ∃ x y v, a = some x ∧ b = some y ∧ x.value = some v ∧ y.value = some v

theorem same_iff (a b : Option Num) : same a b = true ↔ Equal a b := by
  unfold Equal
  cases a with
  | none => cases b with
    | none => simp [same]
    | some y => simp [same]
  | some x => cases b with
    | none => simp [same]
    | some y =>
      cases hy : y.value with
      | none => simp [same, hy]
      | some v => simp [same, hy, Num.eq]

/-- C38: the preset reported as current is the first stored one that agrees with what the light shows, and "Not set" is reported
only if none does.  Legacy lights compare the colour only if they have one; newer ones need presets without a colour then. -/
theorem C38_current (l : Shown) (presets : List (String × State)) :
    (∀ p, matchesLegacy l p = true ↔ Equal p.brightness (some l.brightness) ∧ (l.colorTemp = none ∨ Equal p.colorTemp l.colorTemp) ∧
      (∀ h s, l.color = some (h, s) → Equal p.hue (some h) ∧ Equal p.saturation (some s))) ∧
    (∀ p, matchesSmart l p = true ↔ Equal p.brightness (some l.brightness) ∧ (l.colorTemp = none ∨ Equal p.colorTemp l.colorTemp) ∧
      (∀ h s, l.color = some (h, s) → Equal p.hue (some h) ∧ Equal p.saturation (some s)) ∧
      (l.color = none → p.hue = none ∧ p.saturation = none)) ∧
    (∀ test ∈ [matchesLegacy l, matchesSmart l],
      (∃ (i : Nat) (n : String) (p : State), presets[i]? = some (n, p) ∧ test p = true ∧ current test presets = n ∧
        ∀ (j : Nat) n' p', j < i → presets[j]? = some (n', p') → test p' = false) ∨
      ((∀ x ∈ presets, test x.2 = false) ∧ current test presets = "Not set")) := by
  have hn : ∀ o : Option Num, Equal o none ↔ o = none := by
    intro o
    unfold Equal
    constructor
    · rintro (h | ⟨x, y, v, -, h, -⟩)
      · exact h.1
      · cases h
    · intro h; exact Or.inl ⟨h, rfl⟩
  refine ⟨?_, ?_, fun test _ => current_spec test presets⟩
  · intro p
    unfold matchesLegacy
    simp only [Bool.and_eq_true, Bool.or_eq_true, same_iff, Option.isNone_iff_eq_none]
    cases hc : l.color with
    | none => simp [Or.comm]
    | some hs =>
      obtain ⟨h, s⟩ := hs
      simp only [Option.map_some, reduceCtorEq, or_false, Option.some.injEq, Prod.mk.injEq]
      constructor
      · rintro ⟨⟨⟨h1, h2⟩, h3⟩, h4⟩
        exact ⟨h1, h2.symm, fun h s e => by obtain ⟨rfl, rfl⟩ := e; exact ⟨h3, h4⟩⟩
      · rintro ⟨h1, h2, h3⟩
        exact ⟨⟨⟨h1, h2.symm⟩, (h3 h s ⟨rfl, rfl⟩).1⟩, (h3 h s ⟨rfl, rfl⟩).2⟩
  · intro p
    unfold matchesSmart
    simp only [Bool.and_eq_true, Bool.or_eq_true, same_iff, Option.isNone_iff_eq_none]
    cases hc : l.color with
    | none => simp [Or.comm, hn, and_assoc]
    | some hs =>
      obtain ⟨h, s⟩ := hs
      simp only [Option.map_some, reduceCtorEq, Option.some.injEq, Prod.mk.injEq]
      constructor
      · rintro ⟨⟨⟨h1, h2⟩, h3⟩, h4⟩
        exact ⟨h1, h2.symm, fun h s e => by obtain ⟨rfl, rfl⟩ := e; exact ⟨h3, h4⟩, fun h => by cases h⟩
      · rintro ⟨h1, h2, h3, -⟩
        exact ⟨⟨⟨h1, h2.symm⟩, (h3 h s ⟨rfl, rfl⟩).1⟩, (h3 h s ⟨rfl, rfl⟩).2⟩

/-! ### Examples -/

example : current (matchesLegacy ⟨.int 50, none, none⟩) [("a", { brightness := some (.int 7) }), ("b", { brightness := some (.float 50) })] = "b" := by
  decide +kernel

def demoSlots : List Slot := [.preset { brightness := some (.int 50) }, .effect, .preset { brightness := some (.int 10), hue := some (.int 7) }]
example : Dict.keys (read demoSlots) = ["Light preset 1", "Light preset 3"] := by decide +kernel
example : presetsBefore demoSlots 2 = 1 := by decide
example : ∃ s, demoSlots[2]? = some (.preset s) := ⟨_, rfl⟩
example : (save "x" (read demoSlots) "Light preset 2" {}).isOk = false := by decide +kernel
example : anyOnlyBrightness demoSlots = true := rfl
example : anyOnlyBrightness [.effect, .preset { brightness := some (.int 10), hue := some (.int 7) }] = false := rfl

end Kasa.Presets
