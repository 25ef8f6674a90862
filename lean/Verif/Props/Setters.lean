import Verif.Model.Setters
import Verif.Lemmas.Num
/-!
# C46: settings with a range
-/

namespace Kasa.Setters

/-- `refuse` lets exactly what is in the range through, except for NaN; the request is `c`. -/
theorem sent_iff {x : Num} {lo hi : Rat} {e : Exc} {c : Command} (hn : x ≠ .nan) :
    (InRange x lo hi → (do refuseOutside x lo hi e; pure c : Except Exc Command) = .ok c) ∧
    (¬ InRange x lo hi → ∃ e', (do refuseOutside x lo hi e; pure c : Except Exc Command) = .error e' ∧ (x.isNumber = true → e' = e)) := by
  constructor
  · intro h
    rw [(refuseOutside_ok_iff x lo hi e).mpr (Or.inr h)]
    rfl
  · intro h
    obtain ⟨e', he, h'⟩ := refuseOutside_error (e := e) hn h
    exact ⟨e', by rw [he]; rfl, h'⟩

/-- C46, gradual on/off: above the maximum raises; zero and below turns it off and keeps the stored duration; else the duration
is sent.  Missing: NaN, see `C46_nan`; negative numbers turn it off. -/
theorem C46_transition_partial (key : String) (t : Transition) (seconds : Num) (r : Rat) (h : seconds.value = some r) (hm : 0 ≤ t.max) :
    (r ≤ 0 → setTransition key t seconds = .ok (call "set_on_off_gradually_info"
        [(key, .obj [("enable", .num (.bool false)), ("duration", .num (.int t.duration))])])) ∧
    (0 < r → r ≤ t.max → setTransition key t seconds = .ok (call "set_on_off_gradually_info"
        [(key, .obj [("enable", .num (.bool true)), ("duration", .num seconds)])])) ∧
    (t.max < r → setTransition key t seconds = .error (.other "ValueError")) := by
  unfold setTransition
  rw [Num.gt_of_value h, Num.le_of_value h]
  have hm' : (0 : Rat) ≤ t.max := by exact_mod_cast hm
  refine ⟨?_, ?_, ?_⟩
  · intro h1
    have h2 : ¬ ((t.max : Rat) < r) := by grind
    simp only [bind, Except.bind, h1, h2, decide_true, decide_false]
    rfl
  · intro h1 h2
    have h3 : ¬ ((t.max : Rat) < r) := by grind
    have h4 : ¬ (r ≤ 0) := by grind
    simp only [bind, Except.bind, h3, h4, decide_false]
    rfl
  · intro h1
    simp only [bind, Except.bind, h1, decide_true]
    rfl

/-- C46: infinities are refused or turn the transition off; what is no number raises. -/
theorem C46_transition_other (key : String) (t : Transition) :
    setTransition key t (.inf true) = .error (.other "ValueError") ∧
    setTransition key t (.inf false) = .ok (direction key false (.int t.duration)) ∧
    ∀ b, setTransition key t (.other b) = .error (.other "TypeError") :=
  ⟨rfl, rfl, fun _ => rfl⟩

/-- C46: without a reported maximum it is 60. -/
theorem C46_transition_limit (d : Int) (en : Bool) (m : Int) :
    (readTransition ⟨d, en, none⟩).max = 60 ∧ (readTransition ⟨d, en, some m⟩).max = m ∧
    ∀ o : Option Int, (readTransition ⟨d, true, o⟩).reported = d ∧ (readTransition ⟨d, false, o⟩).reported = 0 :=
  ⟨rfl, rfl, fun _ => ⟨rfl, rfl⟩⟩

/-- C46: turning transitions on or off keeps both stored durations. -/
theorem C46_transitions (on off : Transition) (enable : Bool) :
    setTransitions true on off enable = [
      call "set_on_off_gradually_info" [("on_state", .obj [("enable", .num (.bool enable)), ("duration", .num (.int on.duration))])],
      call "set_on_off_gradually_info" [("off_state", .obj [("enable", .num (.bool enable)), ("duration", .num (.int off.duration))])]] :=
  rfl

/-- C46, fans: levels 1 to 4 are sent with the fan on, 0 turns it off, the rest raises.  Missing: NaN. -/
theorem C46_fan_partial (level : Num) (hn : level ≠ .nan) :
    (level.value = some 0 → setFan level = .ok (call "set_device_info" [("device_on", .num (.bool false))])) ∧
    (level.value ≠ some 0 → InRange level 0 4 →
      setFan level = .ok (call "set_device_info" [("device_on", .num (.bool true)), ("fan_speed_level", .num level)])) ∧
    (¬ InRange level 0 4 → ∃ e, setFan level = .error e ∧ (level.isNumber = true → e = .other "ValueError")) := by
  unfold setFan
  refine ⟨?_, ?_, ?_⟩
  · intro h
    rw [(refuseOutside_ok_iff _ _ _ _).mpr (Or.inr ⟨0, h, by decide +kernel, by decide +kernel⟩)]
    have : level.eq 0 = true := (Num.eq_zero_iff _ _).mpr h
    simp only [bind, Except.bind, this]
    rfl
  · intro h hr
    rw [(refuseOutside_ok_iff _ _ _ _).mpr (Or.inr hr)]
    have : level.eq 0 = false := by
      cases hb : level.eq 0 with
      | false => rfl
      | true => exact absurd ((Num.eq_zero_iff _ _).mp hb) h
    simp only [bind, Except.bind, this]
    rfl
  · intro h
    obtain ⟨e', he, h'⟩ := refuseOutside_error (e := .other "ValueError") hn h
    exact ⟨e', by rw [he]; rfl, h'⟩

/-- C46, thermostats: a temperature is sent exactly if it is in the range of the device, and turns frost protection off if there
is such a thing.  Missing: NaN. -/
theorem C46_target_partial (lo hi : Int) (frost : Bool) (x : Num) (hn : x ≠ .nan) :
    (InRange x lo hi → ∃ c, setTarget lo hi frost x = .ok c ∧ c.method = "set_device_info" ∧
      Dict.get? c.params "target_temp" = some (.num x) ∧
      Dict.get? c.params "frost_protection_on" = if frost then some (.num (.bool false)) else none) ∧
    (¬ InRange x lo hi → ∃ e, setTarget lo hi frost x = .error e ∧ (x.isNumber = true → e = .other "ValueError")) := by
  obtain ⟨h1, h2⟩ := sent_iff (x := x) (lo := lo) (hi := hi) (e := .other "ValueError")
    (c := call "set_device_info" (("target_temp", .num x) :: if frost then [("frost_protection_on", .num (.bool false))] else [])) hn
  refine ⟨fun h => ⟨_, h1 h, rfl, rfl, ?_⟩, h2⟩
  cases frost <;> rfl

/-- C46, thermostats: an offset is sent exactly if it is within ten degrees.  Missing: NaN. -/
theorem C46_offset_partial (x : Num) (hn : x ≠ .nan) :
    (InRange x (-10) 10 → setOffset x = .ok (call "set_device_info" [("temp_offset", .num x)])) ∧
    (¬ InRange x (-10) 10 → ∃ e, setOffset x = .error e ∧ (x.isNumber = true → e = .other "ValueError")) :=
  sent_iff hn

/-! ## Power protection -/

theorem params_enabled (p : Protection) (enabled : Bool) (t : Option Num) :
    Dict.get? (protectionParams p enabled t) "enabled" = some (.num (.bool enabled)) ∧
    Dict.get? (protectionParams p enabled t) "protection_power" =
      (match t with | some x => some (.num x) | none => Dict.get? p.stored "protection_power") ∧
    ∀ k, k ≠ "enabled" → k ≠ "protection_power" → Dict.get? (protectionParams p enabled t) k = Dict.get? p.stored k := by
  unfold protectionParams
  cases t with
  | none =>
    refine ⟨Dict.get?_set_self _ _ _, Dict.get?_set_ne _ _ (by decide), ?_⟩
    intro k h1 _
    exact Dict.get?_set_ne _ _ (fun h => h1 h.symm)
  | some x =>
    refine ⟨?_, Dict.get?_set_self _ _ _, ?_⟩
    · rw [Dict.get?_set_ne _ _ (by decide), Dict.get?_set_self]
    · intro k h1 h2
      rw [Dict.get?_set_ne _ _ (fun h => h2 h.symm), Dict.get?_set_ne _ _ (fun h => h1 h.symm)]

theorem checkThreshold_inRange {max : Int} {x : Num} (h : InRange x 0 max) : checkThreshold max (some x) = .ok () := by
  unfold checkThreshold
  simp only
  split
  · exact (refuseOutside_ok_iff _ _ _ _).mpr (Or.inr h)
  · rfl

/-- C46, power protection through the feature: 0 turns it off and keeps the stored threshold; another number up to the maximum
turns it on with that threshold; any other number raises.  Missing: NaN (`C46_nan`), and things that are no numbers
(`C46_threshold_type`). -/
theorem C46_protection_partial (p : Protection) (x : Num) (hx : x.isNumber = true) (hn : x ≠ .nan) :
    (x.value = some 0 → ∃ c, setThresholdFeature p x = .ok c ∧ c.method = "set_protection_power" ∧
      Dict.get? c.params "enabled" = some (.num (.bool false)) ∧
      Dict.get? c.params "protection_power" = Dict.get? p.stored "protection_power") ∧
    (x.value ≠ some 0 → InRange x 0 p.max → ∃ c, setThresholdFeature p x = .ok c ∧ c.method = "set_protection_power" ∧
      Dict.get? c.params "enabled" = some (.num (.bool true)) ∧ Dict.get? c.params "protection_power" = some (.num x)) ∧
    (x.value ≠ some 0 → ¬ InRange x 0 p.max → setThresholdFeature p x = .error (.other "ValueError")) := by
  have hz : x.value ≠ some 0 → x.eq 0 = false := by
    intro h
    cases hb : x.eq 0 with
    | false => rfl
    | true => exact absurd ((Num.eq_zero_iff _ _).mp hb) h
  refine ⟨?_, ?_, ?_⟩
  · intro h
    obtain ⟨h1, h2, -⟩ := params_enabled p false none
    refine ⟨call "set_protection_power" (protectionParams p false none), ?_, rfl, h1, h2⟩
    unfold setThresholdFeature
    rw [(Num.eq_zero_iff _ _).mpr h]
    rfl
  · intro h hr
    obtain ⟨h1, h2, -⟩ := params_enabled p true (some x)
    refine ⟨call "set_protection_power" (protectionParams p true (some x)), ?_, rfl, h1, h2⟩
    unfold setThresholdFeature
    rw [hz h]
    unfold setProtection defaultThreshold
    simp only [checkThreshold_inRange hr]
    rfl
  · intro h hr
    unfold setThresholdFeature
    rw [hz h]
    have ht : x.truthy = true := by
      cases x with
      | int n => simpa [Num.truthy, Num.value] using h
      | bool b => cases b; simp [Num.value] at h; rfl
      | float y => simpa [Num.truthy, Num.value] using h
      | inf _ => rfl
      | nan => rfl
      | other _ => cases hx
    obtain ⟨e, he, h'⟩ := refuseOutside_error (e := .other "ValueError") hn hr
    rw [h' hx] at he
    unfold setProtection defaultThreshold checkThreshold
    simp only [ht, if_true, he]
    rfl

/-- C46, power protection: turned on without a threshold while none is stored, it gets half of the maximum; if one is stored
that is kept; turned off it is kept. -/
theorem C46_protection_enable (p : Protection) (hm : 0 ≤ p.max) :
    (p.unset = true → ∃ c, setProtection p true none = .ok c ∧ Dict.get? c.params "enabled" = some (.num (.bool true)) ∧
      Dict.get? c.params "protection_power" = some (.num (.int (p.max / 2)))) ∧
    (p.unset = false → ∃ c, setProtection p true none = .ok c ∧ Dict.get? c.params "enabled" = some (.num (.bool true)) ∧
      Dict.get? c.params "protection_power" = Dict.get? p.stored "protection_power") ∧
    (∃ c, setProtection p false none = .ok c ∧ Dict.get? c.params "enabled" = some (.num (.bool false)) ∧
      Dict.get? c.params "protection_power" = Dict.get? p.stored "protection_power") := by
  refine ⟨?_, ?_, ?_⟩
  · intro h
    have hd : p.max.tdiv 2 = p.max / 2 := Int.tdiv_eq_ediv_of_nonneg hm
    have hr : InRange (.int (p.max / 2)) 0 p.max := by
      refine ⟨((p.max / 2 : Int) : Rat), rfl, ?_, ?_⟩
      · have : (0 : Int) ≤ p.max / 2 := by omega
        exact_mod_cast this
      · have : p.max / 2 ≤ p.max := by omega
        exact_mod_cast this
    obtain ⟨h1, h2, -⟩ := params_enabled p true (some (.int (p.max / 2)))
    refine ⟨call "set_protection_power" (protectionParams p true (some (.int (p.max / 2)))), ?_, h1, h2⟩
    unfold setProtection defaultThreshold
    simp only [h, Bool.and_self, if_true, hd, checkThreshold_inRange hr]
    rfl
  · intro h
    obtain ⟨h1, h2, -⟩ := params_enabled p true none
    refine ⟨call "set_protection_power" (protectionParams p true none), ?_, h1, h2⟩
    unfold setProtection defaultThreshold
    simp only [h]
    rfl
  · obtain ⟨h1, h2, -⟩ := params_enabled p false none
    exact ⟨call "set_protection_power" (protectionParams p false none), rfl, h1, h2⟩

/-- C46, power protection: a threshold is sent exactly if it is in the range, and nothing else is changed.  Missing: NaN. -/
theorem C46_threshold_partial (p : Protection) (x : Num) (hn : x ≠ .nan) :
    (InRange x 0 p.max → ∃ c, setThreshold p x = .ok c ∧ c.method = "set_protection_power" ∧
      Dict.get? c.params "protection_power" = some (.num x) ∧
      ∀ k, k ≠ "protection_power" → Dict.get? c.params k = Dict.get? p.stored k) ∧
    (¬ InRange x 0 p.max → ∃ e, setThreshold p x = .error e ∧ (x.isNumber = true → e = .other "ValueError")) := by
  obtain ⟨h1, h2⟩ := sent_iff (x := x) (lo := 0) (hi := p.max) (e := .other "ValueError")
    (c := call "set_protection_power" (Dict.set p.stored "protection_power" (.num x))) hn
  refine ⟨fun h => ⟨_, h1 h, rfl, Dict.get?_set_self _ _ _, ?_⟩, h2⟩
  intro k hk
  exact Dict.get?_set_ne _ _ (fun h => hk h.symm)

/-- C46 is false of NaN: neither below nor above any limit, it is sent by all these setters. -/
theorem C46_nan (t : Transition) (lo hi : Int) (frost : Bool) (p : Protection) :
    setTransition "on_state" t .nan = .ok (direction "on_state" true .nan) ∧
    setFan .nan = .ok (call "set_device_info" [("device_on", .num (.bool true)), ("fan_speed_level", .num .nan)]) ∧
    (∃ c, setTarget lo hi frost .nan = .ok c) ∧ (∃ c, setOffset .nan = .ok c) ∧
    (∃ c, setThreshold p .nan = .ok c) ∧ (∃ c, setThresholdFeature p .nan = .ok c) ∧
    (∃ c, setDimmerThreshold .nan = .ok c) ∧ (∃ c, setRamp .nan = .ok c) :=
  ⟨rfl, rfl, ⟨_, rfl⟩, ⟨_, rfl⟩, ⟨_, rfl⟩, ⟨_, rfl⟩, ⟨_, rfl⟩, ⟨_, rfl⟩⟩

/-- C46 is false of things that are no numbers and count as false, such as an empty string: power protection is turned on with
them as threshold. -/
theorem C46_threshold_type (p : Protection) :
    ∃ c, setProtection p true (some (.other false)) = .ok c ∧
      Dict.get? c.params "protection_power" = some (.num (.other false)) ∧ Dict.get? c.params "enabled" = some (.num (.bool true)) := by
  obtain ⟨h1, h2, -⟩ := params_enabled p true (some (.other false))
  exact ⟨call "set_protection_power" (protectionParams p true (some (.other false))), rfl, h2, h1⟩

/-- C46, auto off: turning it on or off keeps the stored delay, setting the delay keeps whether it is on. -/
theorem C46_auto_off (stored : Int) (delay : Num) (enable : Bool) :
    Dict.get? (autoOffEnabled stored enable).params "delay_min" = some (.num (.int stored)) ∧
    Dict.get? (autoOffEnabled stored enable).params "enable" = some (.num (.bool enable)) ∧
    Dict.get? (autoOffDelay enable delay).params "delay_min" = some (.num delay) ∧
    Dict.get? (autoOffDelay enable delay).params "enable" = some (.num (.bool enable)) :=
  ⟨rfl, rfl, rfl, rfl⟩

/-! ## Dimmer parameters -/

/-- C46, legacy dimmers: thresholds and ramp rates are sent exactly if they are in range.  Missing: NaN. -/
theorem C46_dimmer_partial (x : Num) (hn : x ≠ .nan) :
    (InRange x 0 51 → setDimmerThreshold x = .ok (dimmer "calibrate_brightness" [("minThreshold", .num x)])) ∧
    (¬ InRange x 0 51 → ∃ e, setDimmerThreshold x = .error e ∧ (x.isNumber = true → e = .kasa)) ∧
    (InRange x 10 50 → setRamp x = .ok (dimmer "set_button_ramp_rate" [("rampRate", .num x)])) ∧
    (¬ InRange x 10 50 → ∃ e, setRamp x = .error e ∧ (x.isNumber = true → e = .kasa)) :=
  ⟨(sent_iff hn).1, (sent_iff hn).2, (sent_iff hn).1, (sent_iff hn).2⟩

/-- C46, legacy dimmers: the four times.  Milliseconds are sent as they are, a duration is cut to milliseconds, and out of the
range it raises. -/
theorem C46_dimmer_times (method key : String) (limitMs n us : Int) (hl : limitMs * 1000 ≤ maxDelta) :
    (0 ≤ n → n ≤ limitMs → setTime method key (limitMs * 1000) (.ms n) = .ok (dimmer method [(key, .num (.int n))])) ∧
    (n < 0 ∨ limitMs < n → ∃ e, setTime method key (limitMs * 1000) (.ms n) = .error e) ∧
    (0 ≤ us → us ≤ limitMs * 1000 →
      setTime method key (limitMs * 1000) (.timedelta us) = .ok (dimmer method [(key, .num (.int (us / 1000)))])) ∧
    (us < 0 ∨ limitMs * 1000 < us → setTime method key (limitMs * 1000) (.timedelta us) = .error .kasa) ∧
    setTime method key (limitMs * 1000) .other = .error (.other "TypeError") := by
  unfold setTime toDelta
  refine ⟨?_, ?_, ?_, ?_, rfl⟩
  · intro h1 h2
    have h3 : ¬ (n * 1000 < minDelta ∨ maxDelta < n * 1000) := by unfold minDelta maxDelta at *; omega
    have h4 : ¬ (n * 1000 < 0 ∨ limitMs * 1000 < n * 1000) := by omega
    have h5 : (n * 1000).tdiv 1000 = n := by rw [Int.tdiv_eq_ediv_of_nonneg (by omega)]; omega
    simp only [h3, if_false, bind, Except.bind, h4, h5]
    rfl
  · intro h
    by_cases h3 : n * 1000 < minDelta ∨ maxDelta < n * 1000
    · exact ⟨.other "OverflowError", by simp only [h3, if_true, bind, Except.bind]⟩
    · have h4 : n * 1000 < 0 ∨ limitMs * 1000 < n * 1000 := by omega
      exact ⟨.kasa, by simp only [h3, if_false, bind, Except.bind, h4, if_true]⟩
  · intro h1 h2
    have h4 : ¬ (us < 0 ∨ limitMs * 1000 < us) := by omega
    have h5 : us.tdiv 1000 = us / 1000 := Int.tdiv_eq_ediv_of_nonneg h1
    simp only [bind, Except.bind, h4, if_false, h5]
    rfl
  · intro h
    simp only [bind, Except.bind, h, if_true]

/-- C46: the limits are ten seconds for fading and two minutes for the gentle times. -/
theorem C46_dimmer_limits :
    setFadeOff = setTime "set_fade_off_time" "fadeTime" (10000 * 1000) ∧
    setFadeOn = setTime "set_fade_on_time" "fadeTime" (10000 * 1000) ∧
    setGentleOff = setTime "set_gentle_off_time" "duration" (120000 * 1000) ∧
    setGentleOn = setTime "set_gentle_on_time" "duration" (120000 * 1000) :=
  ⟨rfl, rfl, rfl, rfl⟩

/-! ### Examples -/

example : InRange (.int 3) 0 4 := ⟨3, rfl, by decide +kernel, by decide +kernel⟩
example : (setFan (.int 5)).isOk = false := by decide +kernel
example : (setTransition "on_state" ⟨10, true, 60⟩ (.int 61)).isOk = false := by decide +kernel
example : (setTransition "on_state" ⟨10, true, 60⟩ (.float 0.5)).isOk = true := by decide +kernel
example : Protection.unset ⟨[("enabled", .num (.bool false))], 3000⟩ = true := by decide +kernel
example : Protection.unset ⟨[("protection_power", .num (.int 20))], 3000⟩ = false := by decide +kernel
example : (10000 : Int) * 1000 ≤ maxDelta := by decide +kernel

end Kasa.Setters
