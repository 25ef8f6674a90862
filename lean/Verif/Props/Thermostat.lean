import Verif.Spec.Thermostat
/-!
# C69: thermostats
-/

namespace Kasa.Thermostat
open ThermostatSpec Setters

/-! ## Reading -/

theorem modeOf_eq (l : List String) : modeOf l = doing l := by
  unfold modeOf doing
  cases l with
  | nil => rfl
  | cons a l =>
    generalize hs : a :: l = s
    have hne : s ≠ [] := by rw [← hs]; simp
    have h1 : s.isEmpty = false := by rw [← hs]; rfl
    have hm : ∀ x : String, x ≠ "low_battery" → ((s.filter (· ≠ "low_battery")).contains x = true ↔ x ∈ s) := by
      intro x hx
      simp [List.mem_filter, hx]
    simp only [h1, Bool.false_eq_true, if_false, hne]
    simp only [modes, List.find?]
    have a1 := hm "heating" (by decide)
    have a2 := hm "progress_calibration" (by decide)
    have a3 := hm "idle" (by decide)
    have a4 := hm "off" (by decide)
    generalize s.filter (· ≠ "low_battery") = f at *
    by_cases b1 : "heating" ∈ s
    · simp only [a1.2 b1, b1, if_true]
    · have c1 : f.contains "heating" = false := by
        cases h : f.contains "heating" with
        | false => rfl
        | true => exact absurd (a1.1 h) b1
      simp only [c1, b1, if_false]
      by_cases b2 : "progress_calibration" ∈ s
      · simp only [a2.2 b2, b2, if_true]
      · have c2 : f.contains "progress_calibration" = false := by
          cases h : f.contains "progress_calibration" with
          | false => rfl
          | true => exact absurd (a2.1 h) b2
        simp only [c2, b2, if_false]
        by_cases b3 : "idle" ∈ s
        · simp only [a3.2 b3, b3, if_true]
        · have c3 : f.contains "idle" = false := by
            cases h : f.contains "idle" with
            | false => rfl
            | true => exact absurd (a3.1 h) b3
          simp only [c3, b3, if_false]
          by_cases b4 : "off" ∈ s
          · simp only [a4.2 b4, b4, if_true]
          · have c4 : f.contains "off" = false := by
              cases h : f.contains "off" with
              | false => rfl
              | true => exact absurd (a4.1 h) b4
            simp only [c4, b4, if_false]
            cases f.contains "unknown" <;> rfl

/-- The mode is "off" while frost protection is on, and otherwise what the reported states say. -/
theorem C69_mode (info : Info) (frost : Bool) (l : List String)
    (hf : Dict.get? info "frost_protection_on" = some (.num (.bool frost)))
    (hs : Dict.get? info "trv_states" = some (.arr (l.map .str))) :
    mode info = .ok (if frost then .off else doing l) := by
  have ht : (l.map PyV.str).filterMap text = l := by
    clear hs
    induction l with
    | nil => rfl
    | cons a l ih => exact congrArg (a :: ·) ih
  unfold mode
  simp only [hf, truthy, Num.truthy]
  cases frost with
  | true => rfl
  | false =>
    simp only [Bool.false_eq_true, if_false, states, item, hs, Except.bind, ht, Except.map, modeOf_eq]

/-- The thermostat is on exactly when it is not "off" (unless it says "off" itself). -/
theorem C69_state (info : Info) (frost : Bool) (l : List String)
    (hf : Dict.get? info "frost_protection_on" = some (.num (.bool frost)))
    (hs : Dict.get? info "trv_states" = some (.arr (l.map .str))) (ho : "off" ∉ l) :
    ∃ m, mode info = .ok m ∧ state info = .ok (decide (m ≠ .off)) := by
  refine ⟨_, C69_mode info frost l hf hs, ?_⟩
  simp only [state, item, hf]
  cases frost with
  | true => rfl
  | false =>
    simp only [Bool.false_eq_true, if_false]
    refine congrArg Except.ok (decide_eq_true ?_).symm
    unfold doing
    repeat' split
    all_goals first | exact fun h => nomatch h | contradiction

/-- A low battery does not change the mode of a thermostat that reports another state.
Missing: a thermostat that reports nothing else, for which this is false, see `C69_low_battery`. -/
theorem C69_battery_partial (l l' : List String) (hne : l ++ l' ≠ []) : doing (l ++ "low_battery" :: l') = doing (l ++ l') := by
  have hm : ∀ x : String, x ≠ "low_battery" → (x ∈ l ++ "low_battery" :: l' ↔ x ∈ l ++ l') := by
    intro x hx
    simp [List.mem_append, hx]
  unfold doing
  have h0 : l ++ "low_battery" :: l' ≠ [] := by simp
  simp only [h0, hne, if_false, hm "heating" (by decide), hm "progress_calibration" (by decide), hm "idle" (by decide),
    hm "off" (by decide)]

/-- A thermostat that idles, with a low battery, is shown as "unknown". -/
theorem C69_low_battery (info : Info) (hf : Dict.get? info "frost_protection_on" = some (.num (.bool false))) :
    (Dict.get? info "trv_states" = some (.arr []) → mode info = .ok .idle) ∧
    (Dict.get? info "trv_states" = some (.arr [.str "low_battery"]) → mode info = .ok .unknown) := by
  constructor
  · intro h
    exact C69_mode info false [] hf h
  · intro h
    rw [C69_mode info false ["low_battery"] hf h]
    rfl

/-! ## Setting -/

theorem limits {lo hi : Int} {info : Info} {v : Valve} (h : Holds lo hi info v) (x : Num) :
    setTargetTemperature info x = setTarget lo hi true x := by
  have hh : Dict.has info "frost_protection_on" = true := by
    unfold Dict.has
    rw [h.frost]
    rfl
  simp only [setTargetTemperature, limit, item, h.lo, h.hi, hh, bind, Except.bind]

theorem get_update1 (info : Info) (k : String) (v : PyV) (x : String) :
    Dict.get? (Dict.update info [(k, v)]) x = if k = x then some v else Dict.get? info x := Dict.get?_set _ _ _ _

theorem get_update2 (info : Info) (a b : PyV) (x : String) :
    Dict.get? (Dict.update info [("target_temp", a), ("frost_protection_on", b)]) x =
      if "frost_protection_on" = x then some b else if "target_temp" = x then some a else Dict.get? info x := by
  show Dict.get? ((Dict.set info "target_temp" a).set "frost_protection_on" b) x = _
  rw [Dict.get?_set, Dict.get?_set]

/-- After an update, an operation does to the thermostat what it says; what is refused does nothing. -/
theorem C69_step (lo hi : Int) (info : Info) (v : Valve) (op : Op) (hs : op.sane) (h : Holds lo hi info v) :
    Holds lo hi (step info op) (v.apply lo hi op) := by
  unfold step
  cases op with
  | state on =>
    show Holds lo hi (Dict.update info [("frost_protection_on", .num (.bool !on))]) { v with on := on }
    constructor <;> rw [get_update1]
    · rfl
    · exact h.target
    · exact h.offset
    · exact h.lo
    · exact h.hi
  | frost on =>
    show Holds lo hi (Dict.update info [("frost_protection_on", .num (.bool on))]) { v with on := !on }
    constructor <;> rw [get_update1]
    · simp
    · exact h.target
    · exact h.offset
    · exact h.lo
    · exact h.hi
  | target x =>
    show Holds lo hi (match setTargetTemperature info x with | .ok c => obey info c | .error _ => info) _
    rw [limits h]
    by_cases hr : InRange x lo hi
    · have hok := (refuseOutside_ok_iff x lo hi (.other "ValueError")).2 (.inr hr)
      have : setTarget lo hi true x = .ok (call "set_device_info" [("target_temp", .num x),
          ("frost_protection_on", .num (.bool false))]) := by
        unfold setTarget
        rw [hok]
        rfl
      rw [this]
      simp only [Valve.apply, hr, if_true]
      show Holds lo hi (Dict.update info [("target_temp", .num x), ("frost_protection_on", .num (.bool false))]) _
      constructor <;> rw [get_update2]
      · rfl
      · rfl
      · exact h.offset
      · exact h.lo
      · exact h.hi
    · obtain ⟨e, he⟩ := refuseOutside_error (e := .other "ValueError") hs hr
      have : ∃ e, setTarget lo hi true x = .error e := ⟨e, by unfold setTarget; rw [he.1]; rfl⟩
      obtain ⟨e, he⟩ := this
      rw [he]
      simp only [Valve.apply, hr, if_false]
      exact h
  | offset x =>
    show Holds lo hi (match setOffset x with | .ok c => obey info c | .error _ => info) _
    by_cases hr : InRange x (-10) 10
    · have hok := (refuseOutside_ok_iff x (-10) 10 (.other "ValueError")).2 (.inr hr)
      have : setOffset x = .ok (call "set_device_info" [("temp_offset", .num x)]) := by
        unfold setOffset
        rw [hok]
        rfl
      rw [this]
      simp only [Valve.apply, hr, if_true]
      show Holds lo hi (Dict.update info [("temp_offset", .num x)]) _
      constructor <;> rw [get_update1]
      · exact h.frost
      · exact h.target
      · rfl
      · exact h.lo
      · exact h.hi
    · obtain ⟨e, he⟩ := refuseOutside_error (e := .other "ValueError") hs hr
      have : ∃ e, setOffset x = .error e := ⟨e, by unfold setOffset; rw [he.1]; rfl⟩
      obtain ⟨e, he⟩ := this
      rw [he]
      simp only [Valve.apply, hr, if_false]
      exact h

/-- After any number of operations and an update the thermostat shows what they left: its state, its target, its offset; it
is "off" when it was switched off. -/
theorem C69_history (lo hi : Int) (info : Info) (v : Valve) (ops : List Op) (hs : ∀ op ∈ ops, op.sane)
    (h : Holds lo hi info v) (l : List String) (hl : Dict.get? (ops.foldl step info) "trv_states" = some (.arr (l.map .str))) :
    let v' := ops.foldl (Valve.apply lo hi) v
    state (ops.foldl step info) = .ok v'.on ∧
    targetTemperature (ops.foldl step info) = .ok (.num v'.target) ∧
    temperatureOffset (ops.foldl step info) = .ok (.num v'.offset) ∧
    frostEnabled (ops.foldl step info) = .ok (.num (.bool !v'.on)) ∧
    mode (ops.foldl step info) = .ok (if v'.on then doing l else .off) := by
  have hh : ∀ (ops : List Op) (info : Info) (v : Valve), (∀ op ∈ ops, op.sane) → Holds lo hi info v →
      Holds lo hi (ops.foldl step info) (ops.foldl (Valve.apply lo hi) v) := by
    intro ops
    induction ops with
    | nil => exact fun _ _ _ h => h
    | cons op ops ih =>
      exact fun info v hs h => ih _ _ (fun o ho => hs o (List.mem_cons_of_mem _ ho))
        (C69_step lo hi info v op (hs op (List.mem_cons_self ..)) h)
  have hf := hh ops info v hs h
  generalize ops.foldl (Valve.apply lo hi) v = v' at *
  generalize ops.foldl step info = i' at *
  refine ⟨?_, ?_, ?_, ?_, ?_⟩
  · simp only [state, item, hf.frost, Except.map]
    cases v'.on <;> rfl
  · simp only [targetTemperature, item, hf.target]
  · simp only [temperatureOffset, item, hf.offset]
  · simp only [frostEnabled, item, hf.frost]
  · rw [C69_mode i' (!v'.on) l hf.frost hl]
    cases v'.on <;> rfl

/-- Operations change nothing but the three settings. -/
theorem C69_others (info : Info) (op : Op) (k : String)
    (hk : k ≠ "frost_protection_on" ∧ k ≠ "target_temp" ∧ k ≠ "temp_offset") :
    Dict.get? (step info op) k = Dict.get? info k := by
  unfold step
  cases hsend : send info op with
  | error e => rfl
  | ok c =>
    show Dict.get? (obey info c) k = _
    cases op with
    | state on =>
      cases hsend
      exact (get_update1 info _ _ k).trans (if_neg (Ne.symm hk.1))
    | frost on =>
      cases hsend
      exact (get_update1 info _ _ k).trans (if_neg (Ne.symm hk.1))
    | offset x =>
      have hsend' : setOffset x = .ok c := hsend
      unfold setOffset at hsend'
      cases hr : refuseOutside x (-10) 10 (.other "ValueError") with
      | error e => rw [hr] at hsend'; cases hsend'
      | ok u =>
        rw [hr] at hsend'
        cases hsend'
        exact (get_update1 info _ _ k).trans (if_neg (Ne.symm hk.2.2))
    | target x =>
      have hsend' : setTargetTemperature info x = .ok c := hsend
      unfold setTargetTemperature at hsend'
      cases hlo : limit info "min_control_temp" with
      | error e => rw [hlo] at hsend'; cases hsend'
      | ok lo =>
        cases hhi : limit info "max_control_temp" with
        | error e => rw [hlo, hhi] at hsend'; cases hsend'
        | ok hi =>
          rw [hlo, hhi] at hsend'
          have hset : setTarget lo hi (Dict.has info "frost_protection_on") x = .ok c := hsend'
          unfold setTarget at hset
          cases hr : refuseOutside x lo hi (.other "ValueError") with
          | error e => rw [hr] at hset; cases hset
          | ok u =>
            rw [hr] at hset
            cases hset
            cases Dict.has info "frost_protection_on" with
            | true =>
              refine (get_update2 info _ _ k).trans ?_
              rw [if_neg (Ne.symm hk.1), if_neg (Ne.symm hk.2.1)]
            | false => exact (get_update1 info _ _ k).trans (if_neg (Ne.symm hk.2.1))

/-! ## Examples -/

def info1 : Info := [("frost_protection_on", .num (.bool true)), ("target_temp", .num (.float 18)),
  ("temp_offset", .num (.int 0)), ("min_control_temp", .num (.int 5)), ("max_control_temp", .num (.int 30)),
  ("trv_states", .arr [.str "low_battery", .str "heating"])]

example : Holds 5 30 info1 ⟨false, .float 18, .int 0⟩ := ⟨rfl, rfl, rfl, rfl, rfl⟩

example : mode info1 = .ok .off := C69_mode info1 true ["low_battery", "heating"] rfl rfl

/-- Setting a temperature switches the thermostat on; a temperature out of range changes nothing. -/
example : state ([Op.target (.int 21), .target (.int 31)].foldl step info1) = .ok true := by
  have hin : InRange (.int 21) (5 : Int) (30 : Int) := ⟨21, rfl, by decide +kernel, by decide +kernel⟩
  have hout : ¬ InRange (.int 31) (5 : Int) (30 : Int) := by
    rintro ⟨r, hr, -, h2⟩
    cases hr
    exact absurd h2 (by decide +kernel)
  have := (C69_history 5 30 info1 ⟨false, .float 18, .int 0⟩ [.target (.int 21), .target (.int 31)]
    (by intro op hop; simp only [List.mem_cons, List.not_mem_nil, or_false] at hop; rcases hop with rfl | rfl <;> (intro h; cases h))
    ⟨rfl, rfl, rfl, rfl, rfl⟩ ["low_battery", "heating"]
    (by
      simp only [List.foldl]
      rw [C69_others _ _ _ (by decide), C69_others _ _ _ (by decide)]
      rfl)).1
  simpa only [List.foldl, Valve.apply, hin, hout, if_true, if_false] using this

end Kasa.Thermostat
