import Verif.Spec.Motion
/-!
# C73: motion sensors
-/

namespace Kasa.Motion
open Ops MotionSpec

theorem abs_scale (a c : Rat) (hc : 0 < c) : (a * c).abs = a.abs * c := by
  unfold Rat.abs
  by_cases h : 0 ≤ a
  · rw [if_pos h, if_pos (Rat.mul_nonneg h (Rat.le_of_lt hc))]
  · have hn : ¬ 0 ≤ a * c := by
      rw [Rat.not_le] at h ⊢
      exact (Rat.mul_neg_iff_of_pos_right hc).2 h
    rw [if_neg h, if_neg hn, Rat.neg_mul]

theorem even_mid {c : PIRConfig} {m : Int} (hm : 0 < m) (h0 : c.adcMin = 0) (h1 : c.adcMax = 2 * m) : c.adcMid = m := by
  unfold PIRConfig.adcMid; rw [h0, h1]; omega

theorem even_divisor {c : PIRConfig} {m : Int} (adc : Int) (hm : 0 < m) (h0 : c.adcMin = 0) (h1 : c.adcMax = 2 * m) :
    divisor c adc = m := by
  unfold divisor; rw [even_mid hm h0 h1, h0, h1]; split <;> omega

/-- **C73, when it fires.** A sensor whose readings go from 0 to an even number fires exactly when it is enabled and its
reading is off the middle by more percent than the threshold leaves.  Missing: see `C73_odd` and `C73_not_zero`. -/
theorem C73_triggered_partial (c : PIRConfig) (adc m : Int) (hm : 0 < m) (h0 : c.adcMin = 0) (h1 : c.adcMax = 2 * m) :
    pirTriggered c adc =
      .ok (c.enabled && decide (deviation c.adcMin c.adcMax adc > ((100 - c.threshold : Int) : Rat))) := by
  have hmid := even_mid hm h0 h1
  have hdiv := even_divisor adc hm h0 h1
  unfold pirTriggered
  cases he : c.enabled with
  | false => rfl
  | true =>
    have hq : (0 : Rat) < (m : Rat) := by exact_mod_cast hm
    have hi : (0 : Rat) < (m : Rat)⁻¹ := Rat.inv_pos.2 hq
    simp only [if_true, pirPercent, hdiv, if_neg (by omega : ¬ m = 0), Except.map, Bool.true_and]
    congr 3
    unfold deviation pirValue
    rw [h0, h1, hmid]
    have e1 : ((m - adc : Int) : Rat) = (m : Rat) - (adc : Rat) := by simp
    have e2 : ((2 * adc - (0 + 2 * m) : Int) : Rat) = -(((m : Rat) - (adc : Rat)) * 2) := by
      have : ((2 * adc - (0 + 2 * m) : Int) : Rat) = 2 * (adc : Rat) - 2 * (m : Rat) := by simp
      rw [this]; grind
    have e3 : ((2 * m - 0 : Int) : Rat) = 2 * (m : Rat) := by simp
    have e4 : ((m : Rat) - (adc : Rat)) / (m : Rat) * 100 = ((m : Rat) - (adc : Rat)) * ((m : Rat)⁻¹ * 100) := by grind
    rw [e1, e2, e3, e4, Rat.abs_neg, abs_scale _ 2 (by decide), abs_scale _ _ (Rat.mul_pos hi (by decide))]
    grind

/-- **C73, the percentage.** Of such a sensor, it is between -100 and 100 for every reading in the range, and 0 in the
middle. -/
theorem C73_percent_partial (c : PIRConfig) (adc m : Int) (hm : 0 < m) (h0 : c.adcMin = 0) (h1 : c.adcMax = 2 * m)
    (hl : c.adcMin ≤ adc) (hu : adc ≤ c.adcMax) :
    ∃ p, pirPercent c adc = .ok p ∧ -100 ≤ p ∧ p ≤ 100 ∧ (p = 0 ↔ adc = m) := by
  have hmid := even_mid hm h0 h1
  have hdiv := even_divisor adc hm h0 h1
  have hq : (0 : Rat) < (m : Rat) := by exact_mod_cast hm
  have hi : (0 : Rat) < (m : Rat)⁻¹ := Rat.inv_pos.2 hq
  have hc : (0 : Rat) < (m : Rat)⁻¹ * 100 := Rat.mul_pos hi (by decide)
  refine ⟨(pirValue c adc : Rat) / (m : Rat) * 100, by simp only [pirPercent, hdiv, if_neg (by omega : ¬ m = 0)], ?_⟩
  have hv : pirValue c adc = m - adc := by unfold pirValue; rw [hmid]
  rw [hv]
  have e4 : ((m - adc : Int) : Rat) / (m : Rat) * 100 = ((m - adc : Int) : Rat) * ((m : Rat)⁻¹ * 100) := by grind
  have hmm : (m : Rat) * ((m : Rat)⁻¹ * 100) = 100 := by grind
  rw [e4]
  have a1 : ((m - adc : Int) : Rat) ≤ (m : Rat) := by
    have : m - adc ≤ m := by omega
    exact_mod_cast this
  have a2 : -(m : Rat) ≤ ((m - adc : Int) : Rat) := by
    have : -m ≤ m - adc := by omega
    have := (Rat.intCast_le_intCast (a := -m) (b := m - adc)).2 this
    rwa [Rat.intCast_neg] at this
  refine ⟨?_, ?_, ?_⟩
  · have := Rat.mul_le_mul_of_nonneg_right a2 (Rat.le_of_lt hc)
    rw [Rat.neg_mul, hmm] at this
    exact this
  · have := Rat.mul_le_mul_of_nonneg_right a1 (Rat.le_of_lt hc)
    rw [hmm] at this
    exact this
  · rw [Rat.mul_eq_zero]
    constructor
    · rintro (h | h)
      · have : m - adc = 0 := by exact_mod_cast h
        omega
      · rw [h] at hc
        exact absurd hc (by decide)
    · intro h
      left
      have : m - adc = 0 := by omega
      rw [this]; rfl

/-- **C73, refuted in part.** If the greatest reading is odd, as it is on the devices (4095), the greatest reading counts as
more than 100 percent, and the sensor fires though its threshold is 0. -/
theorem C73_odd (c : PIRConfig) (m : Int) (hm : 0 < m) (h0 : c.adcMin = 0) (h1 : c.adcMax = 2 * m + 1)
    (he : c.enabled = true) (ht : c.threshold = 0) :
    pirTriggered c c.adcMax = .ok true ∧ deviation c.adcMin c.adcMax c.adcMax = 100 := by
  have hmid : c.adcMid = m := by unfold PIRConfig.adcMid; rw [h0, h1]; omega
  have hv : pirValue c c.adcMax = -(m + 1) := by unfold pirValue; rw [hmid, h1]; omega
  have hdiv : divisor c c.adcMax = m := by unfold divisor; rw [hv, if_pos (by omega), hmid, h0]; omega
  have hq : (0 : Rat) < (m : Rat) := by exact_mod_cast hm
  have hi : (0 : Rat) < (m : Rat)⁻¹ := Rat.inv_pos.2 hq
  constructor
  · unfold pirTriggered
    simp only [he, if_true, pirPercent, hdiv, if_neg (by omega : ¬ m = 0), Except.map, hv, ht]
    congr 1
    rw [decide_eq_true_iff]
    have e : ((-(m + 1) : Int) : Rat) = -((m : Rat) + 1) := by simp
    have e4 : ((-(m + 1) : Int) : Rat) / (m : Rat) * 100 = -(100 + (m : Rat)⁻¹ * 100) := by rw [e]; grind
    have hp : 0 < (m : Rat)⁻¹ * 100 := Rat.mul_pos hi (by decide)
    rw [e4, Rat.abs_neg, Rat.abs_of_nonneg (by grind)]
    have : ((100 - 0 : Int) : Rat) = 100 := by decide
    rw [this]
    grind
  · unfold deviation
    rw [h0, h1]
    have e : 2 * (2 * m + 1) - (0 + (2 * m + 1)) = 2 * m + 1 := by omega
    have hp : (0 : Rat) < ((2 * m + 1 : Int) : Rat) := by
      have : (0 : Int) < 2 * m + 1 := by omega
      exact_mod_cast this
    rw [e, Rat.abs_of_nonneg (Rat.le_of_lt hp)]
    have e2 : 2 * m + 1 - 0 = 2 * m + 1 := by omega
    rw [e2]
    grind

/-- **C73, refuted in part.** If the readings do not begin at 0, the sensor fires in the very middle of them. -/
theorem C73_not_zero :
    let c : PIRConfig := { enabled := true, adcMin := 500, adcMax := 2500, range := .near, threshold := 20 }
    pirTriggered c 1500 = .ok true ∧ deviation c.adcMin c.adcMax 1500 = 0 := by
  decide +kernel

/-- **C73, when there is no percentage.** The percentage raises an error exactly when the side the reading is on has no
extent; a sensor that is disabled never raises this. -/
theorem C73_division (c : PIRConfig) (adc : Int) :
    (pirPercent c adc = .error (.other "ZeroDivisionError") ↔
      (c.adcMid < adc ∧ c.adcMid = c.adcMin ∨ adc ≤ c.adcMid ∧ c.adcMid = c.adcMax)) ∧
    (c.enabled = false → pirTriggered c adc = .ok false) := by
  constructor
  · unfold pirPercent divisor pirValue
    by_cases h : c.adcMid - adc < 0
    · rw [if_pos h]
      by_cases h2 : c.adcMid - c.adcMin = 0
      · rw [if_pos h2]; simp; omega
      · rw [if_neg h2]; simp; omega
    · rw [if_neg h]
      by_cases h2 : c.adcMax - c.adcMid = 0
      · rw [if_pos h2]; simp; omega
      · rw [if_neg h2]; simp; omega
  · intro h
    unfold pirTriggered
    rw [h]
    rfl

/-! ## Names of ranges -/

theorem lower_nat (c : Char) : c.toLower.toNat = if 65 ≤ c.toNat ∧ c.toNat ≤ 90 then c.toNat + 32 else c.toNat := by
  unfold Char.toLower
  split
  · rename_i h
    have h1 : 65 ≤ c.val.toNat := h.1
    have h2 : c.val.toNat ≤ 90 := h.2
    rw [if_pos ⟨h1, h2⟩]
    show (c.val + _).toNat = c.val.toNat + 32
    rw [UInt32.toNat_add]
    have : ('a'.val - 'A'.val).toNat = 32 := by decide
    rw [this]
    omega
  · rename_i h
    rw [if_neg]
    rintro ⟨h1, h2⟩
    exact h ⟨h1, h2⟩

theorem upper_nat (c : Char) : c.toUpper.toNat = if 97 ≤ c.toNat ∧ c.toNat ≤ 122 then c.toNat - 32 else c.toNat := by
  unfold Char.toUpper
  split
  · rename_i h
    have h1 : 97 ≤ c.val.toNat := h.1
    have h2 : c.val.toNat ≤ 122 := h.2
    rw [if_pos ⟨h1, h2⟩]
    show (c.val + _).toNat = c.val.toNat - 32
    rw [UInt32.toNat_add]
    have : ('A'.val - 'a'.val).toNat = 4294967264 := by decide
    rw [this]
    omega
  · rename_i h
    rw [if_neg]
    rintro ⟨h1, h2⟩
    exact h ⟨h1, h2⟩

theorem lower_upper (c : Char) : c.toUpper.toLower = c.toLower := by
  apply Char.toNat_inj.1
  rw [lower_nat, lower_nat, upper_nat]
  repeat' split
  all_goals omega

theorem upper_lower (c : Char) : c.toLower.toUpper = c.toUpper := by
  apply Char.toNat_inj.1
  rw [upper_nat, upper_nat, lower_nat]
  repeat' split
  all_goals omega

theorem lower_lower (c : Char) : c.toLower.toLower = c.toLower := by
  apply Char.toNat_inj.1
  rw [lower_nat, lower_nat]
  repeat' split
  all_goals omega

theorem space_lower {c : Char} (h : isSpace c = true) : isSpace c.toLower = true := by
  unfold isSpace at h ⊢
  simp only [lower_nat]
  rw [if_neg]
  · exact h
  · simp only [Bool.or_eq_true, Bool.and_eq_true, decide_eq_true_eq, beq_iff_eq] at h
    omega

theorem dropWhile_append {α : Type} (p : α → Bool) (xs ys : List α) (hx : ∀ c ∈ xs, p c = true)
    (hy : ∀ c ∈ ys, p c = false) : (xs ++ ys).dropWhile p = ys := by
  induction xs with
  | nil =>
    cases ys with
    | nil => rfl
    | cons y ys => simp only [List.nil_append, List.dropWhile_cons, hy y (.head _)]; rfl
  | cons x xs ih =>
    simp only [List.cons_append, List.dropWhile_cons, hx x (.head _), if_true]
    exact ih fun c hc => hx c (.tail _ hc)

theorem dropWhile_split {α : Type} (p : α → Bool) (xs : List α) :
    ∃ front, xs = front ++ xs.dropWhile p ∧ ∀ c ∈ front, p c = true := by
  induction xs with
  | nil => exact ⟨[], rfl, by simp⟩
  | cons x xs ih =>
    obtain ⟨f, h1, h2⟩ := ih
    by_cases hx : p x = true
    · refine ⟨x :: f, ?_, ?_⟩
      · rw [List.dropWhile_cons, if_pos hx, List.cons_append, ← h1]
      · intro c hc
        rcases List.mem_cons.1 hc with rfl | hc
        · exact hx
        · exact h2 c hc
    · exact ⟨[], by rw [List.dropWhile_cons, if_neg hx]; rfl, by simp⟩

theorem strip_split (s : List Char) : ∃ before after, s = before ++ strip s ++ after ∧ (∀ c ∈ before, isSpace c = true) ∧
    (∀ c ∈ after, isSpace c = true) := by
  obtain ⟨b, hb1, hb2⟩ := dropWhile_split isSpace s
  obtain ⟨a, ha1, ha2⟩ := dropWhile_split isSpace (s.dropWhile isSpace).reverse
  refine ⟨b, a.reverse, ?_, hb2, fun c hc => ha2 c (List.mem_reverse.1 hc)⟩
  have : s.dropWhile isSpace = strip s ++ a.reverse := by
    have := congrArg List.reverse ha1
    rw [List.reverse_reverse, List.reverse_append] at this
    exact this
  rw [List.append_assoc, ← this]
  exact hb1

theorem strip_of (before word after : List Char) (h1 : ∀ c ∈ before, isSpace c = true) (h2 : ∀ c ∈ after, isSpace c = true)
    (hw : ∀ c ∈ word, isSpace c = false) (hne : word ≠ []) : strip (before ++ word ++ after) = word := by
  unfold strip
  have e : (before ++ word ++ after).dropWhile isSpace = word ++ after := by
    induction before with
    | nil =>
      cases word with
      | nil => exact absurd rfl hne
      | cons w ws =>
        have : isSpace w = false := hw w (.head _)
        simp [this]
    | cons b bs ih =>
      simp only [List.cons_append, List.dropWhile_cons, h1 b (.head _), if_true]
      exact ih fun c hc => h1 c (.tail _ hc)
  rw [e, List.reverse_append, dropWhile_append _ _ _ (fun c hc => h2 c (List.mem_reverse.1 hc))
    (fun c hc => hw c (List.mem_reverse.1 hc)), List.reverse_reverse]

theorem name_facts : ∀ r ∈ Range.all, ∃ c cs, r.name.toList = c :: cs ∧ c.toUpper = c ∧ cs.map Char.toLower = cs ∧
    (∀ d ∈ (c :: cs).map Char.toLower, isSpace d = false) := by
  intro r hr
  cases r
  · exact ⟨'F', ['a', 'r'], rfl, by decide, by decide, by decide⟩
  · exact ⟨'M', ['i', 'd'], rfl, by decide, by decide, by decide⟩
  · exact ⟨'N', ['e', 'a', 'r'], rfl, by decide, by decide, by decide⟩
  · exact ⟨'C', ['u', 's', 't', 'o', 'm'], rfl, by decide, by decide, by decide⟩

theorem mem_all (r : Range) : r ∈ Range.all := by cases r <;> decide

theorem capitalize_iff (r : Range) (w : List Char) :
    r.name.toList = capitalize w ↔ w.map Char.toLower = r.name.toList.map Char.toLower := by
  obtain ⟨c, cs, hn, hc, hcs, _⟩ := name_facts r (mem_all r)
  rw [hn]
  cases w with
  | nil => simp [capitalize]
  | cons x xs =>
    simp only [capitalize, List.map_cons, List.cons.injEq, hcs]
    constructor
    · rintro ⟨h1, h2⟩
      exact ⟨by rw [h1, lower_upper], h2.symm⟩
    · rintro ⟨h1, h2⟩
      refine ⟨?_, h2.symm⟩
      rw [← hc, ← upper_lower, ← h1, upper_lower]

theorem names_iff (s : String) (r : Range) : Names s r.name ↔ r.name.toList = capitalize (strip s.toList) := by
  rw [capitalize_iff]
  constructor
  · rintro ⟨b, w, a, h1, h2, h3, h4⟩
    obtain ⟨c, cs, hn, hc, hcs, hsp⟩ := name_facts r (mem_all r)
    have hw : ∀ d ∈ w, isSpace d = false := by
      intro d hd
      cases hs : isSpace d with
      | false => rfl
      | true =>
        have hm : d.toLower ∈ w.map Char.toLower := List.mem_map_of_mem hd
        rw [h4, hn] at hm
        have := hsp _ hm
        rw [space_lower hs] at this
        cases this
    have hne : w ≠ [] := by
      rintro rfl
      rw [hn] at h4
      cases h4
    rw [h1, strip_of b w a h2 h3 hw hne]
    exact h4
  · intro h
    obtain ⟨b, a, h1, h2, h3⟩ := strip_split s.toList
    exact ⟨b, strip s.toList, a, h1, h2, h3, h⟩

theorem name_inj {r r' : Range} (h : r.name.toList = r'.name.toList) : r = r' := by
  cases r <;> cases r' <;> first | rfl | (exact absurd h (by decide))

/-- **C73, names.** A range may be given by its name, in upper or lower case and between white space, and by nothing else. -/
theorem C73_names (s : String) (r : Range) : parseRange s = .ok r ↔ Names s r.name := by
  rw [names_iff]
  unfold parseRange
  cases h : Range.all.find? (fun r => r.name.toList = capitalize (strip s.toList)) with
  | none =>
    constructor
    · intro h'; cases h'
    · intro h'
      have := List.find?_eq_none.1 h r (mem_all r)
      exact absurd (decide_eq_true h') this
  | some r' =>
    have hr : r'.name.toList = capitalize (strip s.toList) := by simpa using List.find?_some h
    constructor
    · intro h'; cases h'; exact hr
    · intro h'
      have : r' = r := name_inj (hr.trans h'.symm)
      subst this
      rfl

theorem parse_error (s : String) (h : ∀ r : Range, ¬ Names s r.name) : parseRange s = .error .kasa := by
  cases hp : parseRange s with
  | ok r => exact absurd ((C73_names s r).1 hp) (h r)
  | error e =>
    unfold parseRange at hp
    split at hp
    · cases hp
    · exact hp.symm

/-! ## Over time -/

theorem truthy_bit (b : Bool) : (Json.num (if b then 1 else 0)).truthy = b := by cases b <;> rfl

theorem rangeOf_value (r : Range) : rangeOf (.num r.value) = .ok r := by cases r <;> rfl

theorem nth (a b c d : Json) (r : Range) : ([a, b, c, d] : List Json)[r.value]? =
    some (match r with | .far => a | .mid => b | .near => c | .custom => d) := by
  cases r <;> rfl

/-- **C73, what is shown.** Everything the module shows is what the device stores. -/
theorem C73_shown (lo hi adc : Int) (d : Device) (s : Sensor) (h : Holds lo hi adc d s) :
    enabled d.report = .ok s.on ∧ range d.report = .ok s.range ∧ threshold d.report = .ok (s.at s.range) ∧
      inactivityTimeout d.report = .ok (.num s.timeout) ∧ ranges d.report = .ok ["Far", "Mid", "Near", "Custom"] ∧
      triggered d.report = pirTriggered ⟨s.on, lo, hi, s.range, s.at s.range⟩ adc := by
  obtain ⟨enable, minAdc, maxAdc, index, array, coldTime, a⟩ := d
  obtain ⟨h1, h2, h3, h4, h5, h6, h7⟩ := h
  simp only at h1 h2 h3 h4 h5 h6 h7
  subst h1 h2 h3 h4 h5 h6 h7
  have hcfg : pirConfig (Device.report ⟨.num (if s.on then 1 else 0), .num lo, .num hi, .num s.range.value,
      [.num s.far, .num s.mid, .num s.near, .num s.custom], .num s.timeout, .num adc⟩) =
      .ok ⟨s.on, lo, hi, s.range, s.at s.range⟩ := by
    cases s with
    | mk on r f m n c t => cases r <;> cases on <;> rfl
  refine ⟨?_, ?_, ?_, rfl, rfl, ?_⟩
  · simp only [enabled, hcfg, Except.map]
  · simp only [range, hcfg, Except.map]
  · simp only [threshold, hcfg, Except.map]
  · simp only [triggered, pirState, hcfg, bind, Except.bind]
    cases hon : s.on with
    | false => rfl
    | true => rfl

theorem obey_does {lo hi adc : Int} {d : Device} {s s' : Sensor} {op : Op} (h : Holds lo hi adc d s) (hd : s.Does op s') :
    Holds lo hi adc (step d op) s' := by
  obtain ⟨h1, h2, h3, h4, h5, h6, h7⟩ := h
  cases hd with
  | enable on => exact ⟨rfl, h2, h3, h4, h5, h6, h7⟩
  | range r => exact ⟨h1, h2, h3, rfl, h5, h6, h7⟩
  | named text r hn =>
    have hp := (C73_names text r).2 hn
    have : step d (.named text) = d.obey (setRange r) := by
      simp only [step, send, setRangeName, hp, Except.map]
    rw [this]
    exact ⟨h1, h2, h3, rfl, h5, h6, h7⟩
  | unknown text hn =>
    have : step d (.named text) = d := by
      simp only [step, send, setRangeName, parse_error text hn, Except.map]
    rw [this]
    exact ⟨h1, h2, h3, h4, h5, h6, h7⟩
  | threshold v =>
    refine ⟨h1, h2, h3, rfl, ?_, h6, h7⟩
    show (d.array.set 3 (.num v)) = _
    rw [h5]
    rfl
  | timeout ms => exact ⟨h1, h2, h3, h4, h5, rfl, h7⟩

theorem does_total (s : Sensor) (op : Op) : ∃ s', s.Does op s' := by
  cases op with
  | enable on => exact ⟨_, .enable s on⟩
  | range r => exact ⟨_, .range s r⟩
  | named t =>
    cases hp : parseRange t with
    | ok r => exact ⟨_, .named s t r ((C73_names t r).1 hp)⟩
    | error e =>
      refine ⟨_, .unknown s t fun r hn => ?_⟩
      rw [(C73_names t r).2 hn] at hp
      cases hp
  | threshold v => exact ⟨_, .threshold s v⟩
  | timeout ms => exact ⟨_, .timeout s ms⟩

/-- **C73, over time.** Whatever the owner does in whatever order, it leads to some state, and such a state is what the
device stores (and, by `C73_shown`, what the module shows after an update). -/
theorem C73_history (lo hi adc : Int) (ops : List Op) (d : Device) (s : Sensor) (h : Holds lo hi adc d s) :
    (∃ s', s.Did ops s') ∧ ∀ s', s.Did ops s' → Holds lo hi adc (ops.foldl step d) s' := by
  induction ops generalizing d s with
  | nil =>
    refine ⟨⟨s, .nil s⟩, ?_⟩
    intro s' hs
    cases hs
    exact h
  | cons op ops ih =>
    obtain ⟨s1, h1⟩ := does_total s op
    obtain ⟨⟨s2, h2⟩, _⟩ := ih (step d op) s1 (obey_does h h1)
    refine ⟨⟨s2, .cons h1 h2⟩, ?_⟩
    intro s' hs
    cases hs with
    | cons hd hs => exact (ih _ _ (obey_does h hd)).2 s' hs

/-- **C73, refuted in part.** A range the device has no threshold for is not refused, and afterwards nothing can be read. -/
theorem C73_unsupported (d : Device) (x y z : Json) (ha : d.array = [x, y, z]) (he : ∃ lo, d.minAdc = .num lo)
    (hm : ∃ hi, d.maxAdc = .num hi) :
    ranges d.report = .ok ["Far", "Mid", "Near"] ∧
    let d' := step d (.range .custom)
    enabled d'.report = .error .kasa ∧ range d'.report = .error .kasa ∧ triggered d'.report = .error .kasa := by
  obtain ⟨enable, minAdc, maxAdc, index, array, coldTime, a⟩ := d
  obtain ⟨lo, he⟩ := he
  obtain ⟨hi, hm⟩ := hm
  simp only at ha he hm
  subst ha he hm
  exact ⟨rfl, rfl, rfl, rfl⟩

/-- **C73, the latest reading.** Asking for the reading gives the device's answer, and the module shows it from then on. -/
theorem C73_latest (latest : Json) (kvs : List (String × Json)) (c : PIRConfig) (adc : Json)
    (h : (getPirState latest kvs).2 = .ok (c, adc)) :
    latest.get? "value" = some adc ∧ pirState (.obj (getPirState latest kvs).1) = .ok (c, adc) := by
  simp only [getPirState] at h ⊢
  cases hc : pirConfig (.obj (Dict.set kvs "get_adc_value" latest)) with
  | error e => rw [hc] at h; cases h
  | ok c' =>
    rw [hc] at h
    cases hv : item latest "value" with
    | error e => simp only [bind, Except.bind, hv] at h; cases h
    | ok v =>
      simp only [bind, Except.bind, hv, pure, Except.pure, Except.ok.injEq, Prod.mk.injEq] at h
      obtain ⟨rfl, rfl⟩ := h
      constructor
      · cases latest with
        | obj ls =>
          simp only [item] at hv
          simp only [Json.get?]
          cases hg : Dict.get? ls "value" with
          | none => rw [hg] at hv; cases hv
          | some w => rw [hg] at hv; cases hv; rfl
        | _ => cases hv
      · have hi : item (.obj (Dict.set kvs "get_adc_value" latest)) "get_adc_value" = .ok latest := by
          simp only [item, Dict.get?_set_self]
        simp only [pirState, hc, bind, Except.bind, hi, hv, pure, Except.pure]

/-- The answer of a sensor of ambient light. -/
def lightReport (enable : Json) (value : Int) (more : List Json) : Json :=
  .obj [("get_config", .obj [("devs", .arr (.obj [("hw_id", .num 0), ("enable", enable)] :: more)), ("ver", .str "1.0")]),
    ("get_current_brt", .obj [("value", .num value)])]

/-- **C73, ambient light.** Once a sensor of ambient light stores what it was sent, the module shows it. -/
theorem C73_light (on : Bool) (value : Int) (more : List Json) :
    (∀ v, Dict.get? (setLightEnabled on).2 "enable" = some v → lightEnabled (lightReport v value more) = .ok on) ∧
      (setLightEnabled on).1 = "set_enable" ∧ (∃ v, Dict.get? (setLightEnabled on).2 "enable" = some v) ∧
      lightBrightness (lightReport (.num 0) value more) = .ok value := by
  refine ⟨?_, rfl, ⟨_, rfl⟩, rfl⟩
  intro v hv
  cases hv
  cases on <;> rfl

/-- A sensor the theorems above apply to. -/
def exampleSensor : Sensor := ⟨true, .near, 80, 50, 20, 0, 60000⟩

def exampleDevice : Device := ⟨.num 1, .num 0, .num 4096, .num 2, [.num 80, .num 50, .num 20, .num 0], .num 60000, .num 2048⟩

example : Holds 0 4096 2048 exampleDevice exampleSensor := ⟨rfl, rfl, rfl, rfl, rfl, rfl, rfl⟩

example : Names " fAR\t" "Far" :=
  ⟨[' '], ['f', 'A', 'R'], ['\t'], rfl, by decide, by decide, by decide⟩

example : exampleSensor.Did [.threshold 30, .enable false] ⟨false, .custom, 80, 50, 20, 30, 60000⟩ :=
  .cons (.threshold _ _) (.cons (.enable _ _) (.nil _))

example : triggered exampleDevice.report = .ok false ∧ triggered { exampleDevice with adc := .num 4000 }.report = .ok true := by
  decide +kernel

end Kasa.Motion
