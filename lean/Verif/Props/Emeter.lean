import Verif.Model.Emeter
import Verif.Spec.Emeter
/-!
# C27, C28, C54: energy readings and statistics
-/

namespace Kasa.Emeter

open EmeterSpec

/-! ## C27 -/

theorem downscale_none (item : String) : ∀ s : Readings, (∀ kv ∈ s, startsWith kv.1 item = true → kv.2 = none) →
    downscale item s = none
  | [], _ => rfl
  | (i, v) :: rest, h => by
    unfold downscale
    by_cases hs : startsWith i item = true
    · have : v = none := h (i, v) (by simp) hs
      subst this
      simp only [if_pos hs]
      exact downscale_none item rest (fun kv hkv => h kv (by simp [hkv]))
    · simp only [if_neg hs]
      exact downscale_none item rest (fun kv hkv => h kv (by simp [hkv]))

theorem downscale_only (item k : String) (x : Rat) : ∀ s : Readings, startsWith k item = true → Dict.get? s k = some (some x) →
    (∀ kv ∈ s, startsWith kv.1 item = true → kv.1 = k) → downscale item s = some (x / 1000)
  | [], _, h, _ => by cases h
  | (i, v) :: rest, hk, h, hu => by
    unfold downscale
    rw [Dict.get?_cons] at h
    by_cases hs : startsWith i item = true
    · have : i = k := hu (i, v) (by simp) hs
      subst this
      simp only [if_true] at h
      cases h
      simp only [if_pos hs]
    · have : i ≠ k := fun e => hs (e ▸ hk)
      simp only [if_neg hs]
      rw [if_neg this] at h
      exact downscale_only item k x rest hk h (fun kv hkv => hu kv (by simp [hkv]))

theorem base_valid (q : Quantity) : q.base ∈ validKeys := by cases q <;> decide
theorem milli_valid (q : Quantity) : q.milli ∈ validKeys := by cases q <;> decide
theorem base_plain (q : Quantity) : ¬ '_' ∈ q.base.toList := by cases q <;> decide +kernel
theorem milli_underscore (q : Quantity) : '_' ∈ q.milli.toList := by cases q <;> decide +kernel
theorem before_milli (q : Quantity) : beforeUnderscore q.milli = q.base := by cases q <;> decide +kernel
theorem milli_starts (q : Quantity) : startsWith q.milli q.base = true := by cases q <;> decide +kernel

theorem get_base (s : Readings) (q : Quantity) (h : Dict.get? s q.base = none) :
    getItem s q.base = .ok (downscale q.base s) := by
  unfold getItem
  rw [h]
  simp only [if_neg (not_not_intro (base_valid q)), if_neg (base_plain q)]

theorem get_milli (s : Readings) (q : Quantity) (h : Dict.get? s q.milli = none) :
    getItem s q.milli = upscale (Dict.get? s q.base) := by
  unfold getItem
  rw [h]
  simp only [if_neg (not_not_intro (milli_valid q)), if_pos (milli_underscore q), before_milli]

/-- C27: whatever unit the device uses, a reading comes out right in both units.  Missing: see `C27_lookalike` and
`C27_null`. -/
theorem C27_units_partial (s : Readings) (q : Quantity) (v : Rat) (hr : Reports s q v) (hc : Consistent s q)
    (hl : NoLookalike s q) :
    getItem s q.base = .ok (some v) ∧ getItem s q.milli = .ok (some (v * 1000)) := by
  cases hb : Dict.get? s q.base with
  | some b =>
    cases b with
    | none => exact absurd hb hc.base_num
    | some b =>
      have hbv : b = v := hc.unique b v (Or.inl hb) hr
      subst hbv
      refine ⟨by unfold getItem; rw [hb], ?_⟩
      cases hm : Dict.get? s q.milli with
      | none => rw [get_milli s q hm, hb]; rfl
      | some m =>
        cases m with
        | none => exact absurd hm hc.milli_num
        | some m =>
          have : m / 1000 = b := hc.unique (m / 1000) b (Or.inr (by rw [hm]; congr 2; grind)) hr
          unfold getItem
          rw [hm]
          simp only
          congr 2
          grind
  | none =>
    have hm : Dict.get? s q.milli = some (some (v * 1000)) := by
      rcases hr with h | h
      · rw [hb] at h; cases h
      · exact h
    refine ⟨?_, by unfold getItem; rw [hm]⟩
    rw [get_base s q hb]
    rw [downscale_only q.base q.milli (v * 1000) s (milli_starts q) hm]
    · congr 2
      grind
    · intro kv hkv hs
      have hk : kv.1 ∈ Dict.keys s := List.mem_map.mpr ⟨kv, hkv, rfl⟩
      rcases hl kv.1 hk (List.isPrefixOf_iff_prefix.mp hs) with h | h
      · rw [h] at hk
        exact absurd hk (Dict.get?_eq_none_iff.mp hb)
      · exact h

/-- C27: a reading the device did not report is not invented. -/
theorem C27_absent_partial (s : Readings) (q : Quantity) (hb : Dict.get? s q.base = none) (hm : Dict.get? s q.milli = none)
    (hl : NoLookalike s q) : getItem s q.base = .ok none ∧ getItem s q.milli = .error (.other "KeyError") := by
  refine ⟨?_, by rw [get_milli s q hm, hb]; rfl⟩
  rw [get_base s q hb, downscale_none]
  intro kv hkv hs
  have hk : kv.1 ∈ Dict.keys s := List.mem_map.mpr ⟨kv, hkv, rfl⟩
  rcases hl kv.1 hk (List.isPrefixOf_iff_prefix.mp hs) with h | h
  · rw [h] at hk; exact absurd hk (Dict.get?_eq_none_iff.mp hb)
  · rw [h] at hk; exact absurd hk (Dict.get?_eq_none_iff.mp hm)

/-- C27: what the device reports under a name is given under that name, whatever else it reports. -/
theorem C27_as_reported (s : Readings) (k : String) (v : Option Rat) (h : Dict.get? s k = some v) : getItem s k = .ok v := by
  unfold getItem
  rw [h]

/-- C27: a name that is neither reported nor a quantity of a meter raises `KeyError`. -/
theorem C27_unknown (s : Readings) (k : String) (h : Dict.get? s k = none) (hk : ∀ q : Quantity, k ≠ q.base ∧ k ≠ q.milli) :
    getItem s k = .error (.other "KeyError") := by
  unfold getItem
  rw [h]
  have : k ∉ validKeys := by
    intro hm
    simp only [validKeys, List.mem_cons, List.not_mem_nil, or_false] at hm
    rcases hm with h | h | h | h | h | h | h | h | h | h
    · exact (hk .voltage).2 h
    · exact (hk .power).2 h
    · exact (hk .current).2 h
    · exact (hk .energy).2 h
    · exact (hk .total).2 h
    · exact (hk .voltage).1 h
    · exact (hk .power).1 h
    · exact (hk .current).1 h
    · exact (hk .total).1 h
    · exact (hk .energy).1 h
  simp only [if_pos this]

/-- C27 is false of an answer with another key that begins like the quantity: a reading nobody reported is made of it. -/
theorem C27_lookalike (q : Quantity) (k : String) (v : Rat) (hk : k ≠ q.base) (hp : startsWith k q.base = true) :
    getItem [(k, some v)] q.base = .ok (some (v / 1000)) := by
  have hb : Dict.get? [(k, some v)] q.base = none := by rw [Dict.get?_cons, if_neg hk]; rfl
  rw [get_base _ q hb, downscale_only q.base k v _ hp (by rw [Dict.get?_cons, if_pos rfl])]
  intro kv hkv _
  simp only [List.mem_singleton] at hkv
  rw [hkv]

/-- C27 is false of an answer with a null: the reading in the other unit is not used. -/
theorem C27_null (q : Quantity) (v : Rat) :
    getItem [(q.base, none), (q.milli, some v)] q.base = .ok none ∧
    getItem [(q.base, none)] q.milli = .error (.other "TypeError") := by
  constructor
  · exact C27_as_reported _ _ _ (by rw [Dict.get?_cons, if_pos rfl])
  · rw [get_milli _ q (by rw [Dict.get?_cons, if_neg (by cases q <;> decide)]; rfl), Dict.get?_cons, if_pos rfl]
    rfl

/-- C27, newer devices: consumption, current and voltage are the readings of the device in W, kWh, A and V, and `None` if it
does not report them. -/
theorem C27_smart (d : Data) :
    (∀ p, present (energy d) "current_power" = some p → smartPower d = some (p / 1000)) ∧
    (∀ p, present (energy d) "current_power" = none → present (emeterData d) "power_mw" = some p → smartPower d = some (p / 1000)) ∧
    (∀ p, present (energy d) "current_power" = none → present (emeterData d) "power_mw" = none →
      present (powerData d) "current_power" = some p → smartPower d = some p) ∧
    (present (energy d) "current_power" = none → present (emeterData d) "power_mw" = none →
      present (powerData d) "current_power" = none → smartPower d = none) ∧
    (∀ key x, present (energy d) key = some x → smartConsumption d key = some (x / 1000)) ∧
    (∀ key, present (energy d) key = none → smartConsumption d key = none) ∧
    (∀ key x, present (emeterData d) key = some x → smartReading d key = some (x / 1000)) ∧
    (∀ key, present (emeterData d) key = none → smartReading d key = none) := by
  refine ⟨?_, ?_, ?_, ?_, ?_, ?_, ?_, ?_⟩
  · intro p h; unfold smartPower; rw [h]
  · intro p h h'; unfold smartPower; rw [h, h']
  · intro p h h' h''; unfold smartPower; rw [h, h', h'']
  · intro h h' h''; unfold smartPower; rw [h, h', h'']
  · intro key x h; unfold smartConsumption; rw [h]; rfl
  · intro key h; unfold smartConsumption; rw [h]; rfl
  · intro key x h; unfold smartReading; rw [h]; rfl
  · intro key h; unfold smartReading; rw [h]; rfl

/-- C27 is false of the status of a newer device without meter data: power it does not report is given as 0 W (while
`current_consumption` is `None`), and today's consumption is given as the total (while `consumption_total` is `None`). -/
theorem C27_smart_status (u : Readings) (t : Rat) (hp : Dict.get? u "current_power" = none)
    (ht : Dict.get? u "today_energy" = some (some t)) :
    ∃ s, smartStatus (.v1 u) = .ok s ∧ getItem s "power" = .ok (some 0) ∧ smartPower (.v1 u) = none ∧
      getItem s "total" = .ok (some (t / 1000)) := by
  refine ⟨[("power_mw", some 0), ("total", some (t / 1000))], ?_, ?_, ?_, ?_⟩
  · change statusFromEnergy u = _
    unfold statusFromEnergy
    rw [ht, hp]
    rfl
  · rw [show ("power" : String) = Quantity.power.base from rfl, get_base _ .power rfl,
      downscale_only _ "power_mw" 0 _ (by decide +kernel) (by rfl)]
    · decide +kernel
    · intro kv hkv hs
      simp only [List.mem_cons, List.not_mem_nil, or_false] at hkv
      rcases hkv with rfl | rfl
      · rfl
      · exact absurd hs (by simp only; decide +kernel)
  · unfold smartPower present
    simp only [energy, hp]
    rfl
  · exact C27_as_reported _ _ _ rfl

/-! ## C28 -/

theorem collect_spec (entryKey valueKey : String) (scale : Rat) : ∀ (data : List Entry) (done : List (Rat × Rat)),
    Dict.WF done → (∀ e ∈ data, ∃ k, Dict.get? e entryKey = some k) → (∀ e ∈ data, ∃ k, Dict.get? e valueKey = some k) →
    ∃ r, collect entryKey valueKey scale done data = .ok r ∧ Dict.WF r ∧ ∀ k, Dict.get? r k =
      match latest entryKey k data with
      | some e => (Dict.get? e valueKey).map (· * scale)
      | none => Dict.get? done k
  | [], done, hd, _, _ => ⟨done, rfl, hd, fun _ => rfl⟩
  | e :: es, done, hd, hk, hv => by
    obtain ⟨k, h1⟩ := hk e (by simp)
    obtain ⟨v, h2⟩ := hv e (by simp)
    obtain ⟨r, h3, h4, h5⟩ := collect_spec entryKey valueKey scale es (Dict.set done k (v * scale)) (Dict.WF_set hd _ _)
      (fun e he => hk e (by simp [he])) (fun e he => hv e (by simp [he]))
    refine ⟨r, ?_, h4, ?_⟩
    · unfold collect field
      rw [h1, h2]
      exact h3
    · intro x
      rw [h5 x]
      unfold latest
      rw [List.reverse_cons, List.find?_append]
      cases hf : es.reverse.find? (fun e => decide (Dict.get? e entryKey = some x)) with
      | some e' => rfl
      | none =>
        simp only [Option.none_or, List.find?_cons, List.find?_nil]
        by_cases hx : k = x
        · subst hx
          simp only [h1, h2, decide_true, Dict.get?_set_self, Option.map_some]
        · have : decide (Dict.get? e entryKey = some x) = false := by simp [h1, hx]
          simp only [this, Dict.get?_set, if_neg hx]

/-- The scaling of a uniform list. -/
theorem scaling_uniform (kwh : Bool) (e : Entry) (es : List Entry) (hu : Uniform (e :: es)) :
    ∀ x ∈ e :: es, ∃ v, Dict.get? x (scaling kwh e).1 = some v ∧
      (energyWh x).map (inUnit kwh) = some (v * (scaling kwh e).2) := by
  intro x hx
  rcases hu with h | h
  · obtain ⟨w, hw⟩ := h e (by simp)
    have hh : Dict.has e "energy_wh" = true := by unfold Dict.has; rw [hw]; rfl
    obtain ⟨v, hv⟩ := h x hx
    unfold scaling
    rw [if_pos hh]
    refine ⟨v, hv, ?_⟩
    unfold energyWh inUnit
    rw [hv]
    cases kwh <;> simp only [Option.map_some, Bool.false_eq_true, if_false, if_true] <;> congr 1 <;> grind
  · have hh : ¬ Dict.has e "energy_wh" = true := by unfold Dict.has; rw [(h e (by simp)).1]; decide
    obtain ⟨h0, v, hv⟩ := h x hx
    unfold scaling
    rw [if_neg hh]
    refine ⟨v, hv, ?_⟩
    unfold energyWh inUnit
    rw [h0, hv]
    cases kwh <;> simp only [Option.map_some, Bool.false_eq_true, if_false, if_true] <;> congr 1 <;> grind

theorem latest_mem {entryKey : String} {k : Rat} {data : List Entry} {e : Entry} (h : latest entryKey k data = some e) :
    e ∈ data := List.mem_reverse.mp (List.mem_of_find?_eq_some h)

/-- C28: the statistics map each reported period to its last reported energy in the unit asked for, whatever unit the device
uses, and nothing else. -/
theorem C28_stats (entryKey : String) (kwh : Bool) (data : List Entry) (hd : Dated entryKey data) (hu : Uniform data) :
    ∃ r, convert entryKey kwh data = .ok r ∧ Dict.WF r ∧
      ∀ k, Dict.get? r k = ((latest entryKey k data).bind energyWh).map (inUnit kwh) := by
  cases data with
  | nil => exact ⟨[], rfl, Dict.WF_nil, fun _ => rfl⟩
  | cons e es =>
    have hs := scaling_uniform kwh e es hu
    obtain ⟨r, h1, h2, h3⟩ := collect_spec entryKey (scaling kwh e).1 (scaling kwh e).2 (e :: es) [] Dict.WF_nil hd
      (fun x hx => (hs x hx).elim fun v hv => ⟨v, hv.1⟩)
    refine ⟨r, h1, h2, ?_⟩
    intro k
    rw [h3 k]
    cases hl : latest entryKey k (e :: es) with
    | none => rfl
    | some x =>
      obtain ⟨v, hv1, hv2⟩ := hs x (latest_mem hl)
      simp only [Option.bind_some, hv2, hv1, Option.map_some]

theorem search_spec (entryKey valueKey : String) (key : Rat) : ∀ data : List Entry,
    (∀ e ∈ data, ∃ k, Dict.get? e entryKey = some k) → (∀ e ∈ data, ∃ k, Dict.get? e valueKey = some k) →
    search entryKey valueKey key data =
      .ok ((data.find? (fun e => decide (Dict.get? e entryKey = some key))).bind (fun e => Dict.get? e valueKey))
  | [], _, _ => rfl
  | e :: es, hk, hv => by
    obtain ⟨k, h1⟩ := hk e (by simp)
    obtain ⟨v, h2⟩ := hv e (by simp)
    have ih := search_spec entryKey valueKey key es (fun e he => hk e (by simp [he])) (fun e he => hv e (by simp [he]))
    unfold search field
    rw [h1, h2]
    by_cases hx : k = key
    · subst hx
      simp only [List.find?_cons, h1, decide_true, Option.bind_some, h2, bind, Except.bind, if_true]
      rfl
    · have : decide (Dict.get? e entryKey = some key) = false := by simp [h1, hx]
      simp only [bind, Except.bind, if_neg hx, List.find?_cons, this]
      exact ih

/-- C28: the consumption of a period is the last entry for that period in kWh, and zero if there is none. -/
theorem C28_current (entryKey : String) (now : Rat) (data : List Entry) (hd : Dated entryKey data) (hu : Uniform data) :
    current entryKey now data = .ok ((((latest entryKey now data).bind energyWh).map (· / 1000)).getD 0) := by
  cases data with
  | nil => rfl
  | cons e es =>
    have hs := scaling_uniform true e es hu
    change (search entryKey (scaling true e).1 now (e :: es).reverse >>= _) = _
    rw [search_spec entryKey (scaling true e).1 now (e :: es).reverse (fun x hx => hd x (List.mem_reverse.mp hx))
      (fun x hx => (hs x (List.mem_reverse.mp hx)).elim fun v hv => ⟨v, hv.1⟩)]
    change _ = Except.ok (Option.getD (Option.map _ ((latest entryKey now (e :: es)).bind energyWh)) 0)
    cases hl : latest entryKey now (e :: es) with
    | none =>
      unfold latest at hl
      rw [hl]
      rfl
    | some x =>
      obtain ⟨v, hv1, hv2⟩ := hs x (latest_mem hl)
      unfold latest at hl
      rw [hl]
      have h3 : (energyWh x).map (fun w => w / 1000) = some (v * (scaling true e).2) := hv2
      simp only [Option.bind_some, hv1, bind, Except.bind, h3]
      rfl

/-- The entries with that date. -/
def On (now : Date) (e : Entry) : Prop := Dict.get? e "year" = some now.year ∧ Dict.get? e "month" = some now.month

/-- C28: today's consumption is the last entry of today, and zero if there is none.  Missing: lists read in an earlier month,
see `C28_earlier_month`. -/
theorem C28_today_partial (now : Date) (data : List Entry) (hd : Dated "day" data) (hu : Uniform data) (_hm : ∀ e ∈ data, On now e) :
    consumptionToday now data = .ok ((((data.reverse.find? (fun e => decide (Dict.get? e "year" = some now.year ∧
      Dict.get? e "month" = some now.month ∧ Dict.get? e "day" = some now.day))).bind energyWh).map (· / 1000)).getD 0) := by
  have hf : data.reverse.find? (fun e => decide (Dict.get? e "year" = some now.year ∧
      Dict.get? e "month" = some now.month ∧ Dict.get? e "day" = some now.day)) = latest "day" now.day data := by
    unfold latest
    have : ∀ l : List Entry, (∀ e ∈ l, On now e) → l.find? (fun e => decide (Dict.get? e "year" = some now.year ∧
      Dict.get? e "month" = some now.month ∧ Dict.get? e "day" = some now.day)) =
        l.find? (fun e => decide (Dict.get? e "day" = some now.day)) := by
      intro l
      induction l with
      | nil => intro _; rfl
      | cons e es ih =>
        intro h
        obtain ⟨h1, h2⟩ := h e (by simp)
        rw [List.find?_cons, List.find?_cons, ih (fun x hx => h x (by simp [hx]))]
        simp only [h1, h2, true_and]
    exact this _ (fun e he => _hm e (List.mem_reverse.mp he))
  rw [hf]
  exact C28_current "day" now.day data hd hu

/-- C28 is false after a change of month: until the next update, the first of the month shows what was used on the first
of the month before. -/
theorem C28_earlier_month (now : Date) (year month wh : Rat) :
    consumptionToday now [[("year", year), ("month", month), ("day", now.day), ("energy_wh", wh)]] = .ok (wh / 1000) := by
  unfold consumptionToday
  rw [C28_current]
  · simp [latest, energyWh, Dict.get?_cons]
  · intro e he
    simp only [List.mem_singleton] at he
    subst he
    exact ⟨now.day, by simp [Dict.get?_cons]⟩
  · refine Or.inl ?_
    intro e he
    simp only [List.mem_singleton] at he
    subst he
    exact ⟨wh, by simp [Dict.get?_cons]⟩

/-- C28 for the time of use: the statistics have the last entry of each period, the current period is that entry or
`None`. -/
theorem C28_usage (entryKey : String) (data : List Entry) (hd : Dated entryKey data) (ht : Dated "time" data) :
    (∃ r, convertUsage entryKey data = .ok r ∧ Dict.WF r ∧
      ∀ k, Dict.get? r k = (latest entryKey k data).bind (fun e => Dict.get? e "time")) ∧
    ∀ now, currentUsage entryKey now data = .ok ((latest entryKey now data).bind (fun e => Dict.get? e "time")) := by
  refine ⟨?_, ?_⟩
  · obtain ⟨r, h1, h2, h3⟩ := collect_spec entryKey "time" 1 data [] Dict.WF_nil hd ht
    refine ⟨r, h1, h2, ?_⟩
    intro k
    rw [h3 k]
    cases hl : latest entryKey k data with
    | none => rfl
    | some e =>
      simp only [Option.bind_some]
      cases Dict.get? e "time" with
      | none => rfl
      | some v => simp only [Option.map_some]; congr 1; grind
  · intro now
    exact search_spec entryKey "time" now data.reverse (fun e he => hd e (List.mem_reverse.mp he))
      (fun e he => ht e (List.mem_reverse.mp he))

/-- C28: a list that mixes the units cannot be read. -/
theorem C28_mixed (entryKey : String) (kwh : Bool) (e x : Entry) (k k' : Rat) (w : Rat) (hk : Dict.get? e entryKey = some k)
    (hk' : Dict.get? x entryKey = some k') (he : Dict.get? e "energy_wh" = some w) (hx : Dict.get? x "energy_wh" = none) :
    convert entryKey kwh [e, x] = .error (.other "KeyError") := by
  have hh : Dict.has e "energy_wh" = true := by unfold Dict.has; rw [he]; rfl
  change collect entryKey (scaling kwh e).1 (scaling kwh e).2 [] [e, x] = _
  unfold scaling
  rw [if_pos hh]
  unfold collect field
  simp only [hk, he, bind, Except.bind]
  unfold collect field
  simp only [hk', hx, bind, Except.bind]

/-! ## C54 -/

theorem addAll_spec {K : Type} [DecidableEq K] : ∀ (d : List (K × Option Rat)) (t : List (K × Rat)), Dict.WF d → Dict.WF t →
    (∀ k, Dict.get? d k ≠ some none) →
    ∃ r, addAll t d = .ok r ∧ Dict.WF r ∧
      (∀ k, (Dict.get? r k).getD 0 = (Dict.get? t k).getD 0 + (Dict.get? d k).join.getD 0) ∧
      ∀ k, k ∈ Dict.keys r ↔ k ∈ Dict.keys t ∨ k ∈ Dict.keys d
  | [], t, _, ht, _ => ⟨t, rfl, ht, fun k => by simp; grind, fun k => by simp⟩
  | (k0, v0) :: rest, t, hd, ht, hn => by
    have hn0 := hn k0
    rw [Dict.get?_cons, if_pos rfl] at hn0
    cases v0 with
    | none => exact absurd rfl hn0
    | some v =>
      obtain ⟨hk, hr⟩ := Dict.WF_cons.mp hd
      obtain ⟨r, h1, h2, h3, h4⟩ := addAll_spec rest (Dict.set t k0 ((Dict.get? t k0).getD 0 + v)) hr (Dict.WF_set ht _ _) (by
        intro k hk'
        by_cases he : k0 = k
        · subst he
          exact hk (Dict.has_iff.mp (by unfold Dict.has; rw [hk']; rfl))
        · apply hn k
          rw [Dict.get?_cons, if_neg he]
          exact hk')
      refine ⟨r, h1, h2, ?_, ?_⟩
      · intro k
        rw [h3 k, Dict.get?_set, Dict.get?_cons]
        by_cases he : k0 = k
        · subst he
          have : Dict.get? rest k0 = none := Dict.get?_eq_none_iff.mpr hk
          rw [this]
          simp
          grind
        · rw [if_neg he, if_neg he]
      · intro k
        rw [h4 k, Dict.mem_keys_set, Dict.keys_cons, List.mem_cons]
        simp only
        grind

/-- C54: adding up the readings of the sockets. -/
theorem C54_sums {K : Type} [DecidableEq K] (ds : List (List (K × Option Rat))) (hd : ∀ d ∈ ds, Dict.WF d)
    (hn : ∀ d ∈ ds, ∀ k, Dict.get? d k ≠ some none) :
    ∃ r, mergeSums [] ds = .ok r ∧ Dict.WF r ∧ (∀ k, (Dict.get? r k).getD 0 = total k ds) ∧
      ∀ k, k ∈ Dict.keys r ↔ ∃ d ∈ ds, k ∈ Dict.keys d := by
  have gen : ∀ (ds : List (List (K × Option Rat))) (t : List (K × Rat)), Dict.WF t → (∀ d ∈ ds, Dict.WF d) →
      (∀ d ∈ ds, ∀ k, Dict.get? d k ≠ some none) →
      ∃ r, mergeSums t ds = .ok r ∧ Dict.WF r ∧ (∀ k, (Dict.get? r k).getD 0 = (Dict.get? t k).getD 0 + total k ds) ∧
        ∀ k, k ∈ Dict.keys r ↔ k ∈ Dict.keys t ∨ ∃ d ∈ ds, k ∈ Dict.keys d := by
    intro ds
    induction ds with
    | nil => intro t ht _ _; exact ⟨t, rfl, ht, fun k => by unfold total; grind, fun k => by simp⟩
    | cons d ds ih =>
      intro t ht hd hn
      obtain ⟨t', h1, h2, h3, h4⟩ := addAll_spec d t (hd d (by simp)) ht (hn d (by simp))
      obtain ⟨r, h5, h6, h7, h8⟩ := ih t' h2 (fun x hx => hd x (by simp [hx])) (fun x hx => hn x (by simp [hx]))
      refine ⟨r, ?_, h6, ?_, ?_⟩
      · unfold mergeSums
        rw [h1]
        exact h5
      · intro k
        rw [h7 k, h3 k, show total k (d :: ds) = ((Dict.get? d k).join).getD 0 + total k ds from rfl]
        grind
      · intro k
        rw [h8 k, h4 k]
        simp only [List.mem_cons, exists_eq_or_imp, or_assoc]
  obtain ⟨r, h1, h2, h3, h4⟩ := gen ds [] Dict.WF_nil hd hn
  exact ⟨r, h1, h2, fun k => by rw [h3 k]; simp; grind, fun k => by rw [h4 k]; simp⟩

/-- C54: the statistics of a strip add up those of its sockets, period by period. -/
theorem C54_stats (children : List (List (Rat × Rat))) (hw : ∀ d ∈ children, Dict.WF d) :
    ∃ r, stripStats children = .ok r ∧ Dict.WF r ∧
      (∀ k, (Dict.get? r k).getD 0 = (children.map (fun d => (Dict.get? d k).getD 0)).sum) ∧
      ∀ k, k ∈ Dict.keys r ↔ ∃ d ∈ children, k ∈ Dict.keys d := by
  have hkeys : ∀ d : List (Rat × Rat), Dict.keys (d.map fun kv => (kv.1, some kv.2)) = Dict.keys d := by
    intro d
    unfold Dict.keys
    rw [List.map_map]
    rfl
  have hget : ∀ (d : List (Rat × Rat)) k, Dict.get? (d.map fun kv => (kv.1, some kv.2)) k = (Dict.get? d k).map some := by
    intro d k
    induction d with
    | nil => rfl
    | cons kv d ih =>
      rw [List.map_cons, Dict.get?_cons, Dict.get?_cons, ih]
      by_cases h : kv.1 = k
      · simp [h]
      · simp [h]
  obtain ⟨r, h1, h2, h3, h4⟩ := C54_sums (children.map fun d => d.map fun kv => (kv.1, some kv.2)) (by
      intro d hd
      obtain ⟨d', hd', rfl⟩ := List.mem_map.mp hd
      unfold Dict.WF
      rw [hkeys]
      exact hw d' hd') (by
      intro d hd k
      obtain ⟨d', hd', rfl⟩ := List.mem_map.mp hd
      rw [hget]
      cases Dict.get? d' k <;> simp)
  refine ⟨r, h1, h2, ?_, ?_⟩
  · intro k
    rw [h3 k]
    clear h1 h3 h4 hw
    induction children with
    | nil => rfl
    | cons d ds ih =>
      rw [List.map_cons, List.map_cons, List.sum_cons, ← ih]
      change ((Dict.get? _ k).join).getD 0 + _ = _
      rw [hget]
      cases Dict.get? d k <;> rfl
  · intro k
    rw [h4 k]
    constructor
    · rintro ⟨d, hd, hk⟩
      obtain ⟨d', hd', rfl⟩ := List.mem_map.mp hd
      exact ⟨d', hd', by rw [hkeys] at hk; exact hk⟩
    · rintro ⟨d, hd, hk⟩
      exact ⟨_, List.mem_map.mpr ⟨d, hd, rfl⟩, by rw [hkeys]; exact hk⟩

theorem get?_somes (d : List (String × Rat)) (k : String) :
    Dict.get? (d.map fun kv => (kv.1, some kv.2)) k = (Dict.get? d k).map some := by
  induction d with
  | nil => rfl
  | cons kv d ih =>
    rw [List.map_cons, Dict.get?_cons, Dict.get?_cons, ih]
    by_cases h : kv.1 = k
    · simp [h]
    · simp [h]

/-- C54: every reading of a strip but the voltage is the sum of that reading over the sockets; the voltage in mV is the mean
over all sockets, rounded towards zero.  Missing: sockets that do not report mV count as 0 mV, see `C54_voltage`. -/
theorem C54_status_partial (children : List Readings) (hne : children ≠ []) (hw : ∀ d ∈ children, Dict.WF d)
    (hn : ∀ d ∈ children, ∀ k, Dict.get? d k ≠ some none) :
    ∃ s, stripStatus children = .ok s ∧
      (∀ k, k ≠ "voltage_mv" → (∃ d ∈ children, k ∈ Dict.keys d) → Dict.get? s k = some (some (total k children))) ∧
      (∀ k, k ≠ "voltage_mv" → (∀ d ∈ children, k ∉ Dict.keys d) → Dict.get? s k = none) ∧
      Dict.get? s "voltage_mv" = some (some (truncate (total "voltage_mv" children / children.length))) := by
  obtain ⟨r, h1, h2, h3, h4⟩ := C54_sums children hw hn
  refine ⟨(Dict.set r "voltage_mv" (truncate ((Dict.get? r "voltage_mv").getD 0 / children.length))).map
    fun kv => (kv.1, some kv.2), ?_, ?_, ?_, ?_⟩
  · unfold stripStatus
    rw [h1]
    simp only [bind, Except.bind, if_neg hne]
    rfl
  · intro k hk hd
    rw [get?_somes, Dict.get?_set_ne _ _ (fun h => hk h.symm), ← h3 k]
    have := Dict.has_iff.mpr ((h4 k).mpr hd)
    unfold Dict.has at this
    cases hg : Dict.get? r k with
    | none => rw [hg] at this; cases this
    | some v => rfl
  · intro k hk hd
    rw [get?_somes, Dict.get?_set_ne _ _ (fun h => hk h.symm)]
    have : k ∉ Dict.keys r := fun h => by
      obtain ⟨d, h5, h6⟩ := (h4 k).mp h
      exact hd d h5 h6
    rw [Dict.get?_eq_none_iff.mpr this]
    rfl
  · rw [get?_somes, Dict.get?_set_self, h3]
    rfl

/-- `int` loses less than one. -/
theorem C54_truncate (x : Rat) (hx : 0 ≤ x) : truncate x ≤ x ∧ x < truncate x + 1 ∧ ∃ n : Int, truncate x = n := by
  have hnum : 0 ≤ x.num := Rat.num_nonneg.mpr hx
  have hfl : truncate x = (x.floor : Rat) := by
    unfold truncate
    rw [Rat.floor_def]
    congr 1
    exact (Int.tdiv_eq_ediv_of_nonneg hnum)
  rw [hfl]
  refine ⟨Rat.floor_le x, ?_, x.floor, rfl⟩
  have := Rat.lt_floor_add_one x
  rw [Rat.intCast_add] at this
  exact this

/-- C54: consumption of a strip is the sum over the sockets that report it. -/
theorem C54_consumption (vs : List (Option Rat)) : stripSum vs = (vs.map (·.getD 0)).sum := by
  induction vs with
  | nil => rfl
  | cons v vs ih =>
    unfold stripSum
    rw [List.map_cons, List.sum_cons, ih]
    congr 1
    cases v with
    | none => simp
    | some v =>
      by_cases h : v = 0
      · simp [h]
      · simp [h]

/-- C54 is false of sockets that report volts, or no voltage: the strip says 0 mV, and in the first case the volts of the
sockets added up. -/
theorem C54_voltage (children : List Readings) (hne : children ≠ []) (hw : ∀ d ∈ children, Dict.WF d)
    (hn : ∀ d ∈ children, ∀ k, Dict.get? d k ≠ some none) (hv : ∀ d ∈ children, "voltage_mv" ∉ Dict.keys d) :
    ∃ s, stripStatus children = .ok s ∧ getItem s "voltage_mv" = .ok (some 0) ∧
      ((∃ d ∈ children, "voltage" ∈ Dict.keys d) → getItem s "voltage" = .ok (some (total "voltage" children))) := by
  obtain ⟨s, h1, h2, -, h4⟩ := C54_status_partial children hne hw hn
  refine ⟨s, h1, ?_, fun hd => C27_as_reported _ _ _ (h2 "voltage" (by decide) hd)⟩
  rw [C27_as_reported _ _ _ h4]
  have h0 : ∀ ds : List Readings, (∀ d ∈ ds, "voltage_mv" ∉ Dict.keys d) → total "voltage_mv" ds = 0 := by
    intro ds
    induction ds with
    | nil => intro _; rfl
    | cons d ds ih =>
      intro h
      unfold total
      rw [ih (fun x hx => h x (by simp [hx])), Dict.get?_eq_none_iff.mpr (h d (by simp))]
      decide +kernel
  rw [h0 children hv]
  congr 2
  rw [Rat.div_def, Rat.zero_mul]
  decide +kernel

/-! ### Examples -/

example : getItem [("voltage_mv", some 230100), ("power", some (5 / 2))] "voltage" = .ok (some (2301 / 10)) := by decide +kernel
example : getItem [("voltage_mv", some 230100), ("power", some (5 / 2))] "power_mw" = .ok (some 2500) := by decide +kernel
example : getItem [("voltage_mv", some 230100)] "current" = .ok none := by decide +kernel
example : Reports [("voltage_mv", some 230100)] .voltage (2301 / 10) := Or.inr (by decide +kernel)
example : NoLookalike [("voltage_mv", some 230100)] .voltage := by
  intro k hk _
  simp only [Dict.keys_cons, Dict.keys_nil, List.mem_singleton] at hk
  exact Or.inr hk
example : getItem [("power_factor", some 1)] "power" = .ok (some (1 / 1000)) := by decide +kernel
example : convert "day" true [[("day", 1), ("energy_wh", 500)], [("day", 2), ("energy_wh", 1250)], [("day", 1), ("energy_wh", 700)]] =
    .ok [(1, 7 / 10), (2, 5 / 4)] := by decide +kernel
example : consumptionToday ⟨2024, 5, 2⟩ [[("year", 2024), ("month", 5), ("day", 2), ("energy", 3)]] = .ok 3 := by decide +kernel
example : consumptionToday ⟨2024, 5, 3⟩ [[("year", 2024), ("month", 5), ("day", 2), ("energy", 3)]] = .ok 0 := by decide +kernel
example : currentUsage "month" 4 [[("month", 4), ("time", 70)]] = .ok (some 70) := by decide +kernel
example : stripStatus [[("power_mw", some 1000), ("voltage_mv", some 120001)], [("power_mw", some 500), ("voltage_mv", some 120000)]] =
    .ok [("power_mw", some 1500), ("voltage_mv", some 120000)] := by decide +kernel
example : stripStatus [[("power", some 1), ("voltage", some 120)], [("power", some 2), ("voltage", some 120)]] =
    .ok [("power", some 3), ("voltage", some 240), ("voltage_mv", some 0)] := by decide +kernel
example : stripStats [[(1, 5), (2, 6)], [(2, 7)]] = .ok [(1, 5), (2, 13)] := by decide +kernel

end Kasa.Emeter
