import Verif.Model.Lights
import Verif.Spec.Lights
/-!
# C29: setting lights
-/

namespace Kasa.Lights

open LightsSpec

/-! ## Checks -/

theorem checkInt_ok_iff (x : Num) (lo hi : Rat) : checkInt x lo hi = .ok () ↔ x.isInt = true ∧ InRange x lo hi := by
  unfold checkInt
  by_cases h : x.isInt = true
  · obtain ⟨b, h1, h2⟩ := Num.between_iff x lo hi (Num.isNumber_of_isInt h)
    simp only [h, Bool.not_true, Bool.false_eq_true, if_false, h1, bind, Except.bind, true_and]
    rw [← h2]
    cases b
    · simp
    · simp only [if_true, iff_true]; rfl
  · have h' : x.isInt = false := by simpa using h
    simp [h']

theorem checkInt_cases (x : Num) (lo hi : Rat) :
    checkInt x lo hi = .ok () ∨ checkInt x lo hi = .error (.other "TypeError") ∨ checkInt x lo hi = .error (.other "ValueError") := by
  unfold checkInt
  by_cases h : x.isInt = true
  · obtain ⟨b, h1, -⟩ := Num.between_iff x lo hi (Num.isNumber_of_isInt h)
    simp only [h, Bool.not_true, Bool.false_eq_true, if_false, h1, bind, Except.bind]
    cases b
    · exact Or.inr (Or.inr rfl)
    · exact Or.inl rfl
  · have h' : x.isInt = false := by simpa using h
    simp [h']

theorem checkInt_error {x : Num} {lo hi : Rat} (h : ¬ (x.isInt = true ∧ InRange x lo hi)) :
    checkInt x lo hi = .error (.other "TypeError") ∨ checkInt x lo hi = .error (.other "ValueError") := by
  rcases checkInt_cases x lo hi with h' | h'
  · exact absurd ((checkInt_ok_iff x lo hi).mp h') h
  · exact h'

/-- What a request to a legacy bulb is made of. -/
theorem setLightState_ok (b : Bulb) (state : List (String × PyV)) (t : Option Num) (h : checkState state = .ok ()) :
    ∃ c, setLightState b state t = .ok c ∧ c.target = b.service ∧ c.method = b.method ∧
      (∀ k, k ≠ "transition_period" → k ≠ "on_off" → k ≠ "ignore_default" → Dict.get? c.params k = Dict.get? state k) ∧
      Dict.get? c.params "on_off" = some ((Dict.get? state "on_off").getD (.num (.int 1))) ∧
      (∀ x, t = some x → Dict.get? c.params "transition_period" = some (.num x)) ∧
      (Dict.get? c.params "ignore_default" = some (.num (.int 0)) ∨ Dict.get? c.params "ignore_default" = some (.num (.int 1))) := by
  have key : ∀ st : List (String × PyV), checkState st = .ok () →
      (do checkState st; pure ⟨b.service, b.method, Dict.set (defaultOn st) "ignore_default"
        (.num (.int (ignoreDefault (defaultOn st))))⟩ : Except Exc Command) =
        .ok ⟨b.service, b.method, Dict.set (defaultOn st) "ignore_default" (.num (.int (ignoreDefault (defaultOn st))))⟩ := by
    intro st hst
    rw [hst]
    rfl
  have hdef : ∀ (st : List (String × PyV)) k, k ≠ "on_off" → Dict.get? (defaultOn st) k = Dict.get? st k := by
    intro st k hk
    unfold defaultOn
    split
    · rfl
    · exact Dict.get?_set_ne _ _ (fun h => hk h.symm)
  have hon : ∀ st : List (String × PyV), Dict.get? (defaultOn st) "on_off" = some ((Dict.get? st "on_off").getD (.num (.int 1))) := by
    intro st
    unfold defaultOn
    by_cases h : Dict.has st "on_off" = true
    · rw [if_pos h]
      unfold Dict.has at h
      cases hg : Dict.get? st "on_off" with
      | none => rw [hg] at h; cases h
      | some v => rfl
    · rw [if_neg h]
      have : Dict.get? st "on_off" = none := by
        unfold Dict.has at h
        cases hg : Dict.get? st "on_off" with
        | none => rfl
        | some v => rw [hg] at h; exact absurd rfl h
      rw [Dict.get?_set_self, this]
      rfl
  have hig : ∀ st : List (String × PyV), ignoreDefault st = 0 ∨ ignoreDefault st = 1 := by
    intro st
    unfold ignoreDefault
    split
    · exact Or.inl rfl
    · exact Or.inr rfl
  cases t with
  | none =>
    refine ⟨_, key state h, rfl, rfl, ?_, ?_, ?_, ?_⟩
    · intro k h1 h2 h3
      simp only
      rw [Dict.get?_set_ne _ _ (fun h => h3 h.symm), hdef _ _ h2]
    · simp only
      rw [Dict.get?_set_ne _ _ (by decide), hon]
    · intro x hx; cases hx
    · simp only
      rw [Dict.get?_set_self]
      rcases hig (defaultOn state) with h | h <;> rw [h]
      · exact Or.inl rfl
      · exact Or.inr rfl
  | some x =>
    have hc : checkState (Dict.set state "transition_period" (.num x)) = .ok () := by
      unfold checkState at h ⊢
      rw [Dict.get?_set_ne _ _ (by decide)]
      exact h
    refine ⟨_, key _ hc, rfl, rfl, ?_, ?_, ?_, ?_⟩
    · intro k h1 h2 h3
      simp only
      rw [Dict.get?_set_ne _ _ (fun h => h3 h.symm), hdef _ _ h2, Dict.get?_set_ne _ _ (fun h => h1 h.symm)]
    · simp only
      rw [Dict.get?_set_ne _ _ (by decide), hon, Dict.get?_set_ne _ _ (by decide)]
    · intro y hy
      cases hy
      simp only
      rw [Dict.get?_set_ne _ _ (by decide), hdef _ _ (by decide), Dict.get?_set_self]
    · simp only
      rw [Dict.get?_set_self]
      rcases hig (defaultOn (Dict.set state "transition_period" (.num x))) with h | h <;> rw [h]
      · exact Or.inl rfl
      · exact Or.inr rfl

theorem setLightState_error (b : Bulb) (state : List (String × PyV)) (t : Option Num) (e : Exc) (h : checkState state = .error e) :
    setLightState b state t = .error e := by
  unfold setLightState
  cases t with
  | none => simp only [h]; rfl
  | some x =>
    have : checkState (Dict.set state "transition_period" (.num x)) = .error e := by
      unfold checkState at h ⊢
      rw [Dict.get?_set_ne _ _ (by decide)]
      exact h
    simp only [this]
    rfl

/-- C29, legacy bulbs: a command that says nothing but "on" (and over what time) lets the bulb take its default state;
every other command tells it to ignore the default. -/
theorem C29_default_state (b : Bulb) (state : List (String × PyV)) (t : Option Num) (c : Command)
    (h : setLightState b state t = .ok c) :
    Dict.get? c.params "ignore_default" = some (.num (.int
      (if onOff (Dict.get? c.params "on_off") = true ∧
          ∀ k ∈ Dict.keys state, k = "transition_period" ∨ k = "on_off" then 0 else 1))) := by
  have key : ∀ st : List (String × PyV),
      (∀ k, k ≠ "transition_period" → (k ∈ Dict.keys st ↔ k ∈ Dict.keys state)) →
      (do checkState st; pure ⟨b.service, b.method, Dict.set (defaultOn st) "ignore_default"
        (.num (.int (ignoreDefault (defaultOn st))))⟩ : Except Exc Command) = .ok c →
      Dict.get? c.params "ignore_default" = some (.num (.int
      (if onOff (Dict.get? c.params "on_off") = true ∧
          ∀ k ∈ Dict.keys state, k = "transition_period" ∨ k = "on_off" then 0 else 1))) := by
    intro st hk hst
    cases hc : checkState st with
    | error e => rw [hc] at hst; cases hst
    | ok u =>
      rw [hc] at hst
      cases hst
      simp only
      rw [Dict.get?_set_self, Dict.get?_set_ne _ _ (by decide)]
      unfold ignoreDefault
      have hall : (Dict.keys (defaultOn st)).all (fun k => decide (k = "transition_period" ∨ k = "on_off")) = true ↔
          ∀ k ∈ Dict.keys state, k = "transition_period" ∨ k = "on_off" := by
        rw [List.all_eq_true]
        simp only [decide_eq_true_eq]
        have hd : ∀ k, k ≠ "on_off" → (k ∈ Dict.keys (defaultOn st) ↔ k ∈ Dict.keys st) := by
          intro k h
          unfold defaultOn
          split
          · exact Iff.rfl
          · rw [Dict.mem_keys_set]
            exact ⟨fun h' => h'.elim (fun h' => absurd h' h) id, Or.inr⟩
        constructor
        · intro h k hkm
          by_cases h1 : k = "transition_period"
          · exact Or.inl h1
          · by_cases h2 : k = "on_off"
            · exact Or.inr h2
            · exact h k ((hd k h2).mpr ((hk k h1).mpr hkm))
        · intro h k hkm
          by_cases h1 : k = "transition_period"
          · exact Or.inl h1
          · by_cases h2 : k = "on_off"
            · exact Or.inr h2
            · exact h k ((hk k h1).mp ((hd k h2).mp hkm))
      simp only [hall]
  unfold setLightState at h
  cases t with
  | none => exact key state (fun _ _ => Iff.rfl) h
  | some x =>
    refine key _ (fun k hk => ?_) h
    rw [Dict.mem_keys_set]
    exact ⟨fun h' => h'.elim (fun h' => absurd h' hk) id, Or.inr⟩

/-! ## Legacy bulbs -/

/-- C29, legacy bulbs: setting the colour sends a request exactly if hue, saturation and brightness are integers in their
ranges, and it carries just them; else it raises. -/
theorem C29_hsv (b : Bulb) (hue sat : Num) (value t : Option Num) :
    (b.isColor = true ∧ hue.isInt = true ∧ InRange hue 0 360 ∧ sat.isInt = true ∧ InRange sat 0 100 ∧
        (∀ v, value = some v → v.isInt = true ∧ InRange v 0 100) →
      ∃ c, setHsv b hue sat value t = .ok c ∧ c.target = b.service ∧ c.method = b.method ∧
        Dict.get? c.params "hue" = some (.num hue) ∧ Dict.get? c.params "saturation" = some (.num sat) ∧
        Dict.get? c.params "brightness" = value.map .num ∧ Dict.get? c.params "color_temp" = some (.num (.int 0)) ∧
        Dict.get? c.params "on_off" = some (.num (.int 1))) ∧
    (∀ c, setHsv b hue sat value t = .ok c → ∀ lo hi, Legal c.params lo hi) := by
  constructor
  · rintro ⟨h1, h2, h3, h4, h5, h6⟩
    unfold setHsv
    rw [h1, (checkInt_ok_iff _ _ _).mpr ⟨h2, h3⟩, (checkInt_ok_iff _ _ _).mpr ⟨h4, h5⟩]
    cases value with
    | none =>
      obtain ⟨c, g1, g2, g3, g4, g5, -, -⟩ := setLightState_ok b [("hue", .num hue), ("saturation", .num sat), ("color_temp", .num (.int 0))] t rfl
      refine ⟨c, g1, g2, g3, ?_, ?_, ?_, ?_, ?_⟩
      · rw [g4 _ (by decide) (by decide) (by decide)]; rfl
      · rw [g4 _ (by decide) (by decide) (by decide)]; rfl
      · rw [g4 _ (by decide) (by decide) (by decide)]; rfl
      · rw [g4 _ (by decide) (by decide) (by decide)]; rfl
      · rw [g5]; rfl
    | some v =>
      have hv : checkBrightness v = .ok () := (checkInt_ok_iff _ _ _).mpr (h6 v rfl)
      obtain ⟨c, g1, g2, g3, g4, g5, -, -⟩ := setLightState_ok b
        (Dict.set [("hue", .num hue), ("saturation", .num sat), ("color_temp", .num (.int 0))] "brightness" (.num v)) t hv
      refine ⟨c, ?_, g2, g3, ?_, ?_, ?_, ?_, ?_⟩
      · change (checkBrightness v >>= fun _ => _) = _
        rw [hv]
        exact g1
      · rw [g4 _ (by decide) (by decide) (by decide)]; rfl
      · rw [g4 _ (by decide) (by decide) (by decide)]; rfl
      · rw [g4 _ (by decide) (by decide) (by decide)]; rfl
      · rw [g4 _ (by decide) (by decide) (by decide)]; rfl
      · rw [g5]; rfl
  · intro c h lo hi
    unfold setHsv at h
    cases hc : b.isColor with
    | false => rw [hc] at h; cases h
    | true =>
      rw [hc] at h
      rcases checkInt_cases hue 0 360 with h1 | h1 | h1
      · rw [h1] at h
        rcases checkInt_cases sat 0 100 with h2 | h2 | h2
        · rw [h2] at h
          have hh := ((checkInt_ok_iff _ _ _).mp h1).2
          have hs := ((checkInt_ok_iff _ _ _).mp h2).2
          cases value with
          | none =>
            obtain ⟨c', g1, -, -, g4, -⟩ := setLightState_ok b [("hue", .num hue), ("saturation", .num sat), ("color_temp", .num (.int 0))] t rfl
            change setLightState b _ t = _ at h
            rw [g1] at h
            cases h
            constructor
            · intro v hv; rw [g4 _ (by decide) (by decide) (by decide)] at hv; cases hv
            · intro v hv; rw [g4 _ (by decide) (by decide) (by decide)] at hv; cases hv; exact ⟨_, rfl, hh⟩
            · intro v hv; rw [g4 _ (by decide) (by decide) (by decide)] at hv; cases hv; exact ⟨_, rfl, hs⟩
            · intro v hv; rw [g4 _ (by decide) (by decide) (by decide)] at hv; cases hv; exact Or.inl rfl
          | some v =>
            change (checkBrightness v >>= fun _ => _) = _ at h
            rcases checkInt_cases v 0 100 with h3 | h3 | h3
            · have hv : checkBrightness v = .ok () := h3
              rw [hv] at h
              obtain ⟨c', g1, -, -, g4, -⟩ := setLightState_ok b
                (Dict.set [("hue", .num hue), ("saturation", .num sat), ("color_temp", .num (.int 0))] "brightness" (.num v)) t hv
              change setLightState b _ t = _ at h
              rw [g1] at h
              cases h
              have hb := ((checkInt_ok_iff _ _ _).mp h3).2
              constructor
              · intro v hv; rw [g4 _ (by decide) (by decide) (by decide)] at hv; cases hv; exact ⟨_, rfl, hb⟩
              · intro v hv; rw [g4 _ (by decide) (by decide) (by decide)] at hv; cases hv; exact ⟨_, rfl, hh⟩
              · intro v hv; rw [g4 _ (by decide) (by decide) (by decide)] at hv; cases hv; exact ⟨_, rfl, hs⟩
              · intro v hv; rw [g4 _ (by decide) (by decide) (by decide)] at hv; cases hv; exact Or.inl rfl
            · unfold checkBrightness at h; rw [h3] at h; cases h
            · unfold checkBrightness at h; rw [h3] at h; cases h
        · rw [h2] at h; cases h
        · rw [h2] at h; cases h
      · rw [h1] at h; cases h
      · rw [h1] at h; cases h

/-- The state given to `setLightState` by `setColorTemp`. -/
theorem setColorTemp_eq (b : Bulb) (temp : Num) (value t : Option Num) (hv : b.isVariableTemp = true)
    (hr : refuseOutside temp (tempRange b.model).1 (tempRange b.model).2 (.other "ValueError") = .ok ()) :
    setColorTemp b temp value t =
      setLightState b (("color_temp", .num temp) :: (match value with | some v => [("brightness", .num v)] | none => [])) t := by
  unfold setColorTemp
  rw [hv, hr]
  cases value <;> rfl

/-- C29, legacy bulbs: a colour temperature in the range of the bulb, with a brightness in its range if any, is sent; a request
that is sent is legal.  Missing: NaN, see `C29_nan`. -/
theorem C29_color_temp_partial (b : Bulb) (temp : Num) (value t : Option Num) (hn : temp ≠ .nan) :
    (b.isVariableTemp = true ∧ InRange temp (tempRange b.model).1 (tempRange b.model).2 ∧
        (∀ v, value = some v → v.isInt = true ∧ InRange v 0 100) →
      ∃ c, setColorTemp b temp value t = .ok c ∧ c.target = b.service ∧ c.method = b.method ∧
        Dict.get? c.params "color_temp" = some (.num temp) ∧ Dict.get? c.params "brightness" = value.map .num ∧
        Dict.get? c.params "hue" = none ∧ Dict.get? c.params "saturation" = none ∧
        Dict.get? c.params "on_off" = some (.num (.int 1))) ∧
    (∀ c, setColorTemp b temp value t = .ok c → Legal c.params (tempRange b.model).1 (tempRange b.model).2) := by
  have hstate : ∀ value : Option Num, (∀ v, value = some v → v.isInt = true ∧ InRange v 0 100) →
      checkState (("color_temp", .num temp) :: (match value with | some v => [("brightness", .num v)] | none => [])) = .ok () := by
    intro value h
    cases value with
    | none => rfl
    | some v => exact (checkInt_ok_iff _ _ _).mpr (h v rfl)
  constructor
  · rintro ⟨h1, h2, h3⟩
    rw [setColorTemp_eq b temp value t h1 ((refuseOutside_ok_iff _ _ _ _).mpr (Or.inr h2))]
    obtain ⟨c, g1, g2, g3, g4, g5, -, -⟩ := setLightState_ok b _ t (hstate value h3)
    refine ⟨c, g1, g2, g3, ?_, ?_, ?_, ?_, ?_⟩
    · rw [g4 _ (by decide) (by decide) (by decide)]; rfl
    · rw [g4 _ (by decide) (by decide) (by decide)]; cases value <;> rfl
    · rw [g4 _ (by decide) (by decide) (by decide)]; cases value <;> rfl
    · rw [g4 _ (by decide) (by decide) (by decide)]; cases value <;> rfl
    · rw [g5]; cases value <;> rfl
  · intro c h
    cases hc : b.isVariableTemp with
    | false => unfold setColorTemp at h; rw [hc] at h; cases h
    | true =>
      by_cases hr : InRange temp (tempRange b.model).1 (tempRange b.model).2
      · rw [setColorTemp_eq b temp value t hc ((refuseOutside_ok_iff _ _ _ _).mpr (Or.inr hr))] at h
        by_cases hv : ∀ v, value = some v → v.isInt = true ∧ InRange v 0 100
        · obtain ⟨c', g1, -, -, g4, -⟩ := setLightState_ok b _ t (hstate value hv)
          rw [g1] at h
          cases h
          constructor
          · intro v hb
            rw [g4 _ (by decide) (by decide) (by decide)] at hb
            cases value with
            | none => cases hb
            | some w => cases hb; exact ⟨w, rfl, (hv w rfl).2⟩
          · intro v hb; rw [g4 _ (by decide) (by decide) (by decide)] at hb; cases value <;> cases hb
          · intro v hb; rw [g4 _ (by decide) (by decide) (by decide)] at hb; cases value <;> cases hb
          · intro v hb; rw [g4 _ (by decide) (by decide) (by decide)] at hb; cases hb; exact Or.inr ⟨temp, rfl, hr⟩
        · cases value with
          | none => exact absurd (by intro v hv; cases hv) hv
          | some v =>
            have hv' : ¬ (v.isInt = true ∧ InRange v 0 100) := fun hx => hv (by intro w hw; cases hw; exact hx)
            have : ∃ e, checkState (("color_temp", .num temp) :: [("brightness", .num v)]) = .error e := by
              rcases checkInt_error hv' with he | he
              · exact ⟨_, he⟩
              · exact ⟨_, he⟩
            obtain ⟨e, he⟩ := this
            rw [setLightState_error b _ t e he] at h
            cases h
      · obtain ⟨e, he, -⟩ := refuseOutside_error (e := .other "ValueError") hn hr
        unfold setColorTemp at h
        rw [hc, he] at h
        cases h

theorem get?_stateDict (s : State) :
    Dict.get? (stateDict s) "light_on" = (s.lightOn.map (fun b => PyV.num (.bool b))) ∧
    Dict.get? (stateDict s) "brightness" = s.brightness.map .num ∧ Dict.get? (stateDict s) "hue" = s.hue.map .num ∧
    Dict.get? (stateDict s) "saturation" = s.saturation.map .num ∧ Dict.get? (stateDict s) "color_temp" = s.colorTemp.map .num ∧
    Dict.get? (stateDict s) "on_off" = none ∧ Dict.WF (stateDict s) := by
  obtain ⟨a, b, c, d, e, f⟩ := s
  cases a <;> cases b <;> cases c <;> cases d <;> cases e <;>
    exact ⟨rfl, rfl, rfl, rfl, rfl, rfl, by unfold Dict.WF stateDict; simp [Dict.keys]⟩

/-- C29, legacy bulbs: brightness 0 turns the bulb off and is not sent; an integer from 1 to 100 is sent and turns it on;
anything else raises. -/
theorem C29_brightness (b : Bulb) (x : Num) (t : Option Num) :
    (x.value = some 0 → ∃ c, setBrightness b x t = .ok c ∧ c.target = b.service ∧ c.method = b.method ∧
      Dict.get? c.params "on_off" = some (.num (.int 0)) ∧ Dict.get? c.params "brightness" = none) ∧
    (x.isInt = true → InRange x 1 100 → ∃ c, setBrightness b x t = .ok c ∧ c.target = b.service ∧ c.method = b.method ∧
      Dict.get? c.params "on_off" = some (.num (.int 1)) ∧ Dict.get? c.params "brightness" = some (.num x)) ∧
    (x.value ≠ some 0 → ¬ (x.isInt = true ∧ InRange x 0 100) → ∃ e, setBrightness b x t = .error e) := by
  refine ⟨?_, ?_, ?_⟩
  · intro h
    have hz : isZero (some x) = true := by unfold isZero Num.eq; simpa using h
    obtain ⟨c, g1, g2, g3, g4, g5, -⟩ := setLightState_ok b [("on_off", .num (.int 0))] t rfl
    refine ⟨c, ?_, g2, g3, ?_, ?_⟩
    · unfold setBrightness setState
      simp only [hz, if_true]
      exact g1
    · rw [g5]; rfl
    · rw [g4 _ (by decide) (by decide) (by decide)]; rfl
  · intro hi hr
    have hz : isZero (some x) = false := by
      unfold isZero Num.eq
      obtain ⟨r, h1, h2, -⟩ := hr
      simp only [h1, decide_eq_false_iff_not, Option.some.injEq]
      grind
    have hr' : InRange x 0 100 := by
      obtain ⟨r, h1, h2, h3⟩ := hr
      exact ⟨r, h1, by grind, h3⟩
    obtain ⟨c, g1, g2, g3, g4, g5, -⟩ := setLightState_ok b [("brightness", .num x), ("on_off", .num (.int 1))] t
      ((checkInt_ok_iff _ _ _).mpr ⟨hi, hr'⟩)
    refine ⟨c, ?_, g2, g3, ?_, ?_⟩
    · unfold setBrightness setState
      simp only [hz, Bool.false_eq_true, if_false]
      exact g1
    · rw [g5]; rfl
    · rw [g4 _ (by decide) (by decide) (by decide)]; rfl
  · intro hz hr
    have hz' : isZero (some x) = false := by unfold isZero Num.eq; simpa using hz
    have : ∃ e, checkState [("brightness", .num x), ("on_off", .num (.int 1))] = .error e := by
      rcases checkInt_error hr with h | h
      · exact ⟨_, h⟩
      · exact ⟨_, h⟩
    obtain ⟨e, he⟩ := this
    refine ⟨e, ?_⟩
    unfold setBrightness setState
    simp only [hz', Bool.false_eq_true, if_false]
    exact setLightState_error b _ t e he

/-- C29, legacy bulbs: a whole state is sent with its brightness in range, brightness 0 means off, and hue, saturation and
colour temperature as they were given.  Missing: those are not checked, see `C29_state_unchecked`. -/
theorem C29_state_partial (b : Bulb) (s : State) :
    (isZero s.brightness = true → ∃ c, setState b s = .ok c ∧ Dict.get? c.params "on_off" = some (.num (.int 0)) ∧
      Dict.get? c.params "brightness" = none ∧ Dict.get? c.params "light_on" = none) ∧
    (∀ c, setState b s = .ok c → Bounded c.params "brightness" 0 100 ∧ Dict.get? c.params "hue" = s.hue.map .num ∧
      Dict.get? c.params "saturation" = s.saturation.map .num ∧ Dict.get? c.params "color_temp" = s.colorTemp.map .num ∧
      (isZero s.brightness = false → Dict.get? c.params "brightness" = s.brightness.map .num ∧
        Dict.get? c.params "on_off" = some (.num (.int (if s.lightOn = some false then 0 else 1))))) := by
  obtain ⟨d1, d2, d3, d4, d5, d6, d7⟩ := get?_stateDict s
  have hz : isZero s.brightness = true →
      checkState (Dict.erase (Dict.erase (Dict.set (stateDict s) "on_off" (.num (.int 0))) "brightness") "light_on") = .ok () := by
    intro _
    unfold checkState
    rw [Dict.get?_erase_ne _ (by decide), Dict.get?_erase_self (Dict.WF_set d7 _ _)]
  constructor
  · intro h
    obtain ⟨c, g1, -, -, g4, g5, -⟩ := setLightState_ok b _ s.transition (hz h)
    refine ⟨c, ?_, ?_, ?_, ?_⟩
    · unfold setState
      simp only [h, if_true]
      exact g1
    · rw [g5, Dict.get?_erase_ne _ (by decide), Dict.get?_erase_ne _ (by decide), Dict.get?_set_self]
      rfl
    · rw [g4 _ (by decide) (by decide) (by decide), Dict.get?_erase_ne _ (by decide), Dict.get?_erase_self (Dict.WF_set d7 _ _)]
    · rw [g4 _ (by decide) (by decide) (by decide), Dict.get?_erase_self (Dict.WF_erase (Dict.WF_set d7 _ _) _)]
  · intro c h
    cases hb : isZero s.brightness with
    | true =>
      obtain ⟨c', g1, -, -, g4, g5, -⟩ := setLightState_ok b _ s.transition (hz hb)
      unfold setState at h
      simp only [hb, if_true] at h
      rw [g1] at h
      cases h
      refine ⟨?_, ?_, ?_, ?_, ?_⟩
      · intro v hv
        rw [g4 _ (by decide) (by decide) (by decide), Dict.get?_erase_ne _ (by decide), Dict.get?_erase_self (Dict.WF_set d7 _ _)] at hv
        cases hv
      · rw [g4 _ (by decide) (by decide) (by decide), Dict.get?_erase_ne _ (by decide), Dict.get?_erase_ne _ (by decide),
          Dict.get?_set_ne _ _ (by decide), d3]
      · rw [g4 _ (by decide) (by decide) (by decide), Dict.get?_erase_ne _ (by decide), Dict.get?_erase_ne _ (by decide),
          Dict.get?_set_ne _ _ (by decide), d4]
      · rw [g4 _ (by decide) (by decide) (by decide), Dict.get?_erase_ne _ (by decide), Dict.get?_erase_ne _ (by decide),
          Dict.get?_set_ne _ _ (by decide), d5]
      · intro h; cases h
    | false =>
      unfold setState at h
      simp only [hb, Bool.false_eq_true, if_false] at h
      have hget : ∀ (v : PyV) k, k ≠ "light_on" → k ≠ "on_off" →
          Dict.get? (Dict.erase (Dict.set (stateDict s) "on_off" v) "light_on") k = Dict.get? (stateDict s) k := by
        intro v k h1 h2
        rw [Dict.get?_erase_ne _ (fun h => h1 h.symm), Dict.get?_set_ne _ _ (fun h => h2 h.symm)]
      have hcheck : ∀ v : PyV, checkState (Dict.erase (Dict.set (stateDict s) "on_off" v) "light_on") =
          match s.brightness with | some x => checkBrightness x | none => .ok () := by
        intro v
        unfold checkState
        rw [hget _ _ (by decide) (by decide), d2]
        cases s.brightness <;> rfl
      by_cases hok : ∀ x, s.brightness = some x → x.isInt = true ∧ InRange x 0 100
      · have hc' : ∀ v : PyV, checkState (Dict.erase (Dict.set (stateDict s) "on_off" v) "light_on") = .ok () := by
          intro v
          rw [hcheck]
          cases hbr : s.brightness with
          | none => rfl
          | some x => exact (checkInt_ok_iff _ _ _).mpr (hok x hbr)
        obtain ⟨c', g1, -, -, g4, g5, -⟩ := setLightState_ok b _ s.transition
          (hc' (.num (.int (onValue s.lightOn))))
        rw [g1] at h
        cases h
        refine ⟨?_, ?_, ?_, ?_, ?_⟩
        · intro v hv
          rw [g4 _ (by decide) (by decide) (by decide), hget _ _ (by decide) (by decide), d2] at hv
          cases hbr : s.brightness with
          | none => rw [hbr] at hv; cases hv
          | some x => rw [hbr] at hv; cases hv; exact ⟨x, rfl, (hok x hbr).2⟩
        · rw [g4 _ (by decide) (by decide) (by decide), hget _ _ (by decide) (by decide), d3]
        · rw [g4 _ (by decide) (by decide) (by decide), hget _ _ (by decide) (by decide), d4]
        · rw [g4 _ (by decide) (by decide) (by decide), hget _ _ (by decide) (by decide), d5]
        · intro _
          refine ⟨by rw [g4 _ (by decide) (by decide) (by decide), hget _ _ (by decide) (by decide), d2], ?_⟩
          rw [g5, Dict.get?_erase_ne _ (by decide), Dict.get?_set_self]
          cases s.lightOn with
          | none => rfl
          | some on => cases on <;> rfl
      · have : ∃ x, s.brightness = some x ∧ ¬ (x.isInt = true ∧ InRange x 0 100) := by
          apply Classical.byContradiction
          intro hne
          exact hok (fun x hx => Classical.byContradiction fun hn => hne ⟨x, hx, hn⟩)
        obtain ⟨x, hx, hn⟩ := this
        have : ∃ e, ∀ v : PyV, checkState (Dict.erase (Dict.set (stateDict s) "on_off" v) "light_on") = .error e := by
          rcases checkInt_error hn with he | he
          · exact ⟨_, fun v => by rw [hcheck, hx]; exact he⟩
          · exact ⟨_, fun v => by rw [hcheck, hx]; exact he⟩
        obtain ⟨e, he⟩ := this
        rw [setLightState_error b _ s.transition e (he _)] at h
        cases h

/-- C29 is false of setting a whole state on legacy bulbs: any hue, saturation and colour temperature is sent. -/
theorem C29_state_unchecked (b : Bulb) (hue sat temp : Num) :
    ∃ c, setState b { hue := some hue, saturation := some sat, colorTemp := some temp } = .ok c ∧
      Dict.get? c.params "hue" = some (.num hue) ∧ Dict.get? c.params "saturation" = some (.num sat) ∧
      Dict.get? c.params "color_temp" = some (.num temp) := by
  obtain ⟨c, g1, -, -, g4, -⟩ := setLightState_ok b
    [("hue", .num hue), ("saturation", .num sat), ("color_temp", .num temp), ("on_off", .num (.int 1))] none rfl
  refine ⟨c, g1, ?_, ?_, ?_⟩
  · rw [g4 _ (by decide) (by decide) (by decide)]; rfl
  · rw [g4 _ (by decide) (by decide) (by decide)]; rfl
  · rw [g4 _ (by decide) (by decide) (by decide)]; rfl

/-- C29 is false of NaN: it is neither below nor above the range, and is sent. -/
theorem C29_nan (b : Bulb) (l : Light) (lo hi : Int) (hb : b.isVariableTemp = true) (hl : l.tempRange = some (lo, hi)) :
    (∃ c, setColorTemp b .nan none none = .ok c ∧ Dict.get? c.params "color_temp" = some (.num .nan)) ∧
    smartColorTemp l .nan none = .ok (setInfo [("color_temp", .num .nan)]) := by
  constructor
  · rw [setColorTemp_eq b .nan none none hb rfl]
    obtain ⟨c, g1, -, -, g4, -⟩ := setLightState_ok b [("color_temp", .num .nan)] none rfl
    exact ⟨c, g1, by rw [g4 _ (by decide) (by decide) (by decide)]; rfl⟩
  · unfold smartColorTemp
    rw [hl]
    rfl

/-- C29 is false of brightness 0 given with a colour or a colour temperature: it is sent as a brightness, with the light on. -/
theorem C29_zero_sent (b : Bulb) (hc : b.isColor = true) :
    ∃ c, setHsv b (.int 120) (.int 50) (some (.int 0)) none = .ok c ∧
      Dict.get? c.params "brightness" = some (.num (.int 0)) ∧ Dict.get? c.params "on_off" = some (.num (.int 1)) := by
  obtain ⟨c, g1, -, -, -, -, g6, -, g8⟩ := (C29_hsv b (.int 120) (.int 50) (some (.int 0)) none).1
    ⟨hc, rfl, ⟨120, rfl, by decide +kernel, by decide +kernel⟩, rfl, ⟨50, rfl, by decide +kernel, by decide +kernel⟩,
      fun v hv => by cases hv; exact ⟨rfl, 0, rfl, by decide +kernel, by decide +kernel⟩⟩
  exact ⟨c, g1, g6, g8⟩

/-! ## Legacy dimmers -/

/-- The commands a dimmer may get: the relay, or a transition to a brightness in range, taking at least a millisecond. -/
def DimmerCommand (c : Command) : Prop :=
  c = relay 0 ∨ c = relay 1 ∨ ∃ x t, c = ⟨"smartlife.iot.dimmer", "set_dimmer_transition", [("brightness", .num x), ("duration", .num t)]⟩ ∧
    x.isInt = true ∧ InRange x 0 100 ∧ t.isInt = true ∧ ∃ r, t.value = some r ∧ 1 ≤ r

theorem gt_zero_int {t : Num} (h : t.isInt = true) : ∃ b, t.gt 0 = .ok b ∧ (b = true ↔ ∃ r, t.value = some r ∧ 1 ≤ r) := by
  cases t with
  | int n =>
    refine ⟨decide ((0 : Rat) < n), rfl, ?_⟩
    simp only [decide_eq_true_eq, Num.value, Option.some.injEq, exists_eq_left']
    constructor
    · intro h
      have h1 : (0 : Int) < n := by exact_mod_cast h
      have h2 : (1 : Int) ≤ n := h1
      exact_mod_cast h2
    · intro h
      grind
  | bool b => cases b
              · exact ⟨false, by decide +kernel, by simp [Num.value]; decide +kernel⟩
              · exact ⟨true, by decide +kernel, by simp [Num.value]⟩
  | float x => cases h
  | inf p => cases h
  | nan => cases h
  | other t => cases h

theorem dimmerTransition_ok (x t : Num) (c : Command) (h : dimmerTransition x t = .ok c) :
    ∃ t', c = ⟨"smartlife.iot.dimmer", "set_dimmer_transition", [("brightness", .num x), ("duration", .num t')]⟩ ∧
      x.isInt = true ∧ InRange x 0 100 ∧ t'.isInt = true ∧ (∃ r, t'.value = some r ∧ 1 ≤ r) ∧
      (t.value = some 0 → t' = .int 1) ∧ (t.value ≠ some 0 → t' = t) := by
  unfold dimmerTransition at h
  rcases checkInt_cases x 0 100 with h1 | h1 | h1
  · rw [h1] at h
    obtain ⟨hi, hr⟩ := (checkInt_ok_iff _ _ _).mp h1
    simp only [bind, Except.bind] at h
    by_cases ht : (if t.eq 0 = true then Num.int 1 else t).isInt = true
    · rw [if_neg (by rw [ht]; decide)] at h
      obtain ⟨b, g1, g2⟩ := gt_zero_int ht
      rw [g1] at h
      simp only at h
      cases b with
      | false => cases h
      | true =>
        cases h
        refine ⟨_, rfl, hi, hr, ht, g2.mp rfl, ?_, ?_⟩
        · intro hz
          have : t.eq 0 = true := by unfold Num.eq; simpa using hz
          rw [if_pos this]
        · intro hz
          have : ¬ t.eq 0 = true := by unfold Num.eq; simpa using hz
          rw [if_neg this]
    · rw [if_pos (by simpa using ht)] at h
      cases h
  · rw [h1] at h; cases h
  · rw [h1] at h; cases h

/-- C29, legacy dimmers: whatever state is set, only allowed commands are sent, brightness 0 turns the dimmer off, and any other
brightness is sent as it was given, unless the state says off. -/
theorem C29_dimmer (current : Int) (s : State) (c : Command) (h : dimmerState current s = .ok c) :
    DimmerCommand c ∧
    (isZero s.brightness = true ∨ s.lightOn = some false → c = relay 0 ∨
      Dict.get? c.params "brightness" = some (.num (.int 0))) ∧
    (∀ x, s.brightness = some x → x.truthy = true → isZero s.brightness = false → s.lightOn ≠ some false →
      Dict.get? c.params "brightness" = some (.num x)) := by
  have hd : ∀ x t c, dimmerTransition x t = .ok c → DimmerCommand c := by
    intro x t c h
    obtain ⟨t', h1, h2, h3, h4, h5, -⟩ := dimmerTransition_ok x t c h
    exact Or.inr (Or.inr ⟨x, t', h1, h2, h3, h4, h5⟩)
  have hb : ∀ x t c, dimmerTransition x t = .ok c → Dict.get? c.params "brightness" = some (.num x) := by
    intro x t c h
    obtain ⟨t', h1, -⟩ := dimmerTransition_ok x t c h
    rw [h1]
    rfl
  unfold dimmerState at h
  by_cases hz : isZero s.brightness = true ∨ s.lightOn = some false
  · rw [if_pos hz] at h
    unfold dimmerOff at h
    cases ht : s.transition with
    | none =>
      rw [ht] at h
      cases h
      refine ⟨Or.inl rfl, fun _ => Or.inl rfl, ?_⟩
      intro x hx _ h1 h2
      rcases hz with hz | hz
      · rw [hz] at h1; cases h1
      · exact absurd hz h2
    | some t =>
      rw [ht] at h
      refine ⟨hd _ _ _ h, fun _ => Or.inr (hb _ _ _ h), ?_⟩
      intro x hx _ h1 h2
      rcases hz with hz | hz
      · rw [hz] at h1; cases h1
      · exact absurd hz h2
  · rw [if_neg hz] at h
    have hon : ∀ c, dimmerOn current s.transition = .ok c → DimmerCommand c := by
      intro c h
      unfold dimmerOn at h
      cases ht : s.transition with
      | none => rw [ht] at h; cases h; exact Or.inr (Or.inl rfl)
      | some t => rw [ht] at h; exact hd _ _ _ h
    refine ⟨?_, fun h' => absurd h' hz, ?_⟩
    · cases hbr : s.brightness with
      | none => rw [hbr] at h; exact hon c h
      | some x =>
        rw [hbr] at h
        simp only at h
        by_cases hx : x.truthy = true
        · rw [if_pos hx] at h; exact hd _ _ _ h
        · rw [if_neg hx] at h; exact hon c h
    · intro x hx htr _ _
      rw [hx] at h
      simp only [if_pos htr] at h
      exact hb _ _ _ h

/-- C29, legacy dimmers: a brightness that is not an integer from 0 to 100, in a state that does not say off, raises. -/
theorem C29_dimmer_refused (current : Int) (s : State) (x : Num) (hx : s.brightness = some x) (ht : x.truthy = true)
    (hoff : s.lightOn ≠ some false) (hz : x.value ≠ some 0) (hr : ¬ (x.isInt = true ∧ InRange x 0 100)) :
    ∃ e, dimmerState current s = .error e := by
  cases h : dimmerState current s with
  | error e => exact ⟨e, rfl⟩
  | ok c =>
    have hz' : isZero s.brightness = false := by rw [hx]; unfold isZero Num.eq; simpa using hz
    obtain ⟨h1, -, h3⟩ := C29_dimmer current s c h
    have hb := h3 x hx ht hz' hoff
    rcases h1 with h1 | h1 | ⟨y, t, h1, h2, h4, -⟩
    · rw [h1] at hb; cases hb
    · rw [h1] at hb; cases hb
    · rw [h1] at hb
      cases hb
      exact absurd ⟨h2, h4⟩ hr

/-- C29, legacy dimmers: a brightness that is not an integer from 0 to 100 is refused; 0 is sent as 1, the lowest the dimmer has;
any other is sent as it was given; a transition that is sent along has that brightness, too. -/
theorem C29_dimmer_brightness (x : Num) :
    (x.isInt = true → x.value = some 0 → dimmerBrightness x none = .ok ⟨"smartlife.iot.dimmer", "set_brightness", [("brightness", .num (.int 1))]⟩) ∧
    (x.isInt = true → InRange x 1 100 → dimmerBrightness x none = .ok ⟨"smartlife.iot.dimmer", "set_brightness", [("brightness", .num x)]⟩) ∧
    (∀ t, ¬ (x.isInt = true ∧ InRange x 0 100) → dimmerBrightness x t = .error (.other "ValueError")) ∧
    (∀ t c, dimmerBrightness x (some t) = .ok c → DimmerCommand c ∧
      Dict.get? c.params "brightness" = some (.num (if x.value = some 0 then .int 1 else x))) := by
  have hb : x.isInt = true → ∃ b, x.between 0 100 = .ok b ∧ (b = true ↔ InRange x 0 100) :=
    fun h => Num.between_iff x 0 100 (Num.isNumber_of_isInt h)
  have hok : ∀ t, x.isInt = true → InRange x 0 100 → dimmerBrightness x t =
      (match t with
        | some t => dimmerTransition (if x.eq 0 then .int 1 else x) t
        | none => .ok ⟨"smartlife.iot.dimmer", "set_brightness", [("brightness", .num (if x.eq 0 then .int 1 else x))]⟩) := by
    intro t hi hr
    obtain ⟨b, h1, h2⟩ := hb hi
    have hbt : b = true := h2.mpr hr
    subst hbt
    unfold dimmerBrightness
    rw [hi]
    simp only [Bool.not_true, Bool.false_eq_true, if_false, h1]
    rfl
  have hno : ∀ t, ¬ (x.isInt = true ∧ InRange x 0 100) → dimmerBrightness x t = .error (.other "ValueError") := by
    intro t hn
    unfold dimmerBrightness
    cases hi : x.isInt with
    | false => rfl
    | true =>
      obtain ⟨b, h1, h2⟩ := hb hi
      have hbf : b = false := Bool.eq_false_iff.mpr (fun h => hn ⟨hi, h2.mp h⟩)
      subst hbf
      simp only [Bool.not_true, Bool.false_eq_true, if_false, h1]
      rfl
  refine ⟨?_, ?_, hno, ?_⟩
  · intro hi hv
    rw [hok none hi ⟨0, hv, by decide, by decide⟩]
    have : x.eq 0 = true := by unfold Num.eq; rw [hv]; simp
    rw [this]
    rfl
  · rintro hi ⟨r, hv, h1, h2⟩
    rw [hok none hi ⟨r, hv, by grind, h2⟩]
    have : x.eq 0 = false := by
      unfold Num.eq
      rw [hv]
      simp
      grind
    rw [this]
    rfl
  · intro t c h
    by_cases hr : x.isInt = true ∧ InRange x 0 100
    · rw [hok (some t) hr.1 hr.2] at h
      obtain ⟨t', h1, h2, h3, h4, h5, -⟩ := dimmerTransition_ok _ t c h
      refine ⟨Or.inr (Or.inr ⟨_, t', h1, h2, h3, h4, h5⟩), ?_⟩
      rw [h1]
      by_cases hz : x.value = some 0
      · have : x.eq 0 = true := by unfold Num.eq; rw [hz]; simp
        rw [this, if_pos hz]
        rfl
      · have : x.eq 0 = false := by unfold Num.eq; simpa using hz
        rw [this, if_neg hz]
        rfl
    · rw [hno _ hr] at h
      cases h

/-! ## Newer lights -/

/-- C29, newer lights: brightness 0 turns the light off; an integer from 1 to 100 is sent, to the running effect if there is
one; anything else raises. -/
theorem C29_smart_brightness (l : Light) (x : Num) (hl : l.hasBrightness = true) :
    (x.isInt = true → x.value = some 0 → smartBrightness l x = .ok (setInfo [("device_on", .num (.bool false))])) ∧
    (x.isInt = true → InRange x 1 100 →
      (l.effect = none → smartBrightness l x = .ok (setInfo [("brightness", .num x)])) ∧
      (∀ e, l.effect = some e → smartBrightness l x = effectBrightness e x)) ∧
    (¬ (x.isInt = true ∧ InRange x 0 100) → smartBrightness l x = .error (.other "ValueError")) := by
  have hb : ∀ (h : x.isInt = true) (P : Prop), (InRange x 0 100 ↔ P) → ∃ b, x.between 0 100 = .ok b ∧ (b = true ↔ P) := by
    intro h P hP
    obtain ⟨b, h1, h2⟩ := Num.between_iff x 0 100 (Num.isNumber_of_isInt h)
    exact ⟨b, h1, h2.trans hP⟩
  refine ⟨?_, ?_, ?_⟩
  · intro hi hv
    obtain ⟨b, h1, h2⟩ := hb hi True ⟨fun _ => trivial, fun _ => ⟨0, hv, by decide +kernel, by decide +kernel⟩⟩
    have hb' : b = true := h2.mpr trivial
    subst hb'
    have he : x.eq 0 = true := by unfold Num.eq; simpa using hv
    unfold smartBrightness
    simp only [hl, hi, h1, he, bind, Except.bind]
    rfl
  · intro hi hr
    have hr' : InRange x 0 100 := by
      obtain ⟨r, h1, h2, h3⟩ := hr
      exact ⟨r, h1, by grind, h3⟩
    obtain ⟨b, h1, h2⟩ := hb hi True ⟨fun _ => trivial, fun _ => hr'⟩
    have hb' : b = true := h2.mpr trivial
    subst hb'
    have he : x.eq 0 = false := by
      unfold Num.eq
      obtain ⟨r, h1, h2, -⟩ := hr
      simp only [h1, decide_eq_false_iff_not, Option.some.injEq]
      grind
    constructor
    · intro hn
      unfold smartBrightness
      simp only [hl, hi, h1, he, hn, bind, Except.bind]
      rfl
    · intro e hn
      unfold smartBrightness
      simp only [hl, hi, h1, he, hn, bind, Except.bind]
      rfl
  · intro hn
    unfold smartBrightness
    by_cases hi : x.isInt = true
    · obtain ⟨b, h1, h2⟩ := hb hi False ⟨fun h => hn ⟨hi, h⟩, fun h => h.elim⟩
      have hb' : b = false := by cases b; rfl; exact (h2.mp rfl).elim
      subst hb'
      simp only [hl, hi, h1, bind, Except.bind]
      rfl
    · have hi' : x.isInt = false := by simpa using hi
      simp only [hl, hi']
      rfl

/-- C29, newer lights: the running effect gets that brightness in all its colours, and keeps everything else. -/
theorem C29_effect_brightness (x : Num) (rule : List (String × PyV)) (colors : List (List Num)) (c : Command)
    (h : effectBrightness (.bulb rule colors) x = .ok c) :
    c.method = "edit_dynamic_light_effect_rule" ∧ (∀ k, k ≠ "color_status_list" → Dict.get? c.params k = Dict.get? rule k) ∧
    ∃ cs : List PyV, Dict.get? c.params "color_status_list" = some (.arr cs) ∧ cs.length = colors.length ∧
      ∀ (i : Nat) (old : List Num), colors[i]? = some old →
        cs[i]? = some (PyV.arr (.num x :: ((old.drop 1).take 3).map PyV.num)) := by
  unfold effectBrightness at h
  have hall : ∀ colors (cs : List PyV), replaceAll x colors = .ok cs → cs.length = colors.length ∧
      ∀ (i : Nat) (old : List Num), colors[i]? = some old → cs[i]? = some (PyV.arr (.num x :: ((old.drop 1).take 3).map PyV.num)) := by
    intro colors
    induction colors with
    | nil => intro cs h; cases h; exact ⟨rfl, by intro i old h; simp at h⟩
    | cons c0 rest ih =>
      intro cs h
      unfold replaceAll at h
      cases h1 : replaceBrightness x c0 with
      | error e => rw [h1] at h; cases h
      | ok y =>
        cases h2 : replaceAll x rest with
        | error e => rw [h1, h2] at h; cases h
        | ok ys =>
          rw [h1, h2] at h
          cases h
          obtain ⟨g1, g2⟩ := ih ys h2
          refine ⟨by simp [g1], ?_⟩
          intro i old hi
          cases i with
          | zero =>
            simp only [List.getElem?_cons_zero, Option.some.injEq] at hi ⊢
            subst hi
            match c0, h1 with
            | _ :: a :: b :: d :: _, h1 => cases h1; rfl
            | [], h1 => cases h1
            | [_], h1 => cases h1
            | [_, _], h1 => cases h1
            | [_, _, _], h1 => cases h1
          | succ i =>
            simp only [List.getElem?_cons_succ] at hi ⊢
            exact g2 i old hi
  simp only [bind, Except.bind] at h
  cases hr : replaceAll x colors with
  | error e => rw [hr] at h; cases h
  | ok cs =>
    rw [hr] at h
    cases h
    obtain ⟨g1, g2⟩ := hall colors cs hr
    refine ⟨rfl, ?_, cs, ?_, g1, g2⟩
    · intro k hk
      exact Dict.get?_set_ne _ _ (fun h => hk h.symm)
    · exact Dict.get?_set_self _ _ _

/-- C29, newer lights: setting the colour sends a request exactly if hue, saturation and brightness are integers in their
ranges; it is legal. -/
theorem C29_smart_hsv (l : Light) (hue sat : Num) (value : Option Num) :
    (l.hasColor = true ∧ hue.isInt = true ∧ InRange hue 0 360 ∧ sat.isInt = true ∧ InRange sat 0 100 ∧
        (∀ v, value = some v → v.isInt = true ∧ InRange v 0 100) →
      smartHsv l hue sat value = .ok (setInfo ([("color_temp", .num (.int 0)), ("hue", .num hue), ("saturation", .num sat)] ++
        (match value with | some v => [("brightness", .num v)] | none => [])))) ∧
    (∀ c, smartHsv l hue sat value = .ok c → ∀ lo hi, Legal c.params lo hi) := by
  constructor
  · rintro ⟨h1, h2, h3, h4, h5, h6⟩
    unfold smartHsv
    rw [h1, (checkInt_ok_iff _ _ _).mpr ⟨h2, h3⟩, (checkInt_ok_iff _ _ _).mpr ⟨h4, h5⟩]
    cases value with
    | none => rfl
    | some v =>
      have hv : checkBrightness v = .ok () := (checkInt_ok_iff _ _ _).mpr (h6 v rfl)
      change (checkBrightness v >>= fun _ => _) = _
      rw [hv]
      rfl
  · intro c h lo hi
    unfold smartHsv at h
    cases hc : l.hasColor with
    | false => rw [hc] at h; cases h
    | true =>
      rw [hc] at h
      rcases checkInt_cases hue 0 360 with h1 | h1 | h1
      · rw [h1] at h
        rcases checkInt_cases sat 0 100 with h2 | h2 | h2
        · rw [h2] at h
          have hh := ((checkInt_ok_iff _ _ _).mp h1).2
          have hs := ((checkInt_ok_iff _ _ _).mp h2).2
          cases value with
          | none =>
            cases h
            constructor
            · intro v hv; cases hv
            · intro v hv; cases hv; exact ⟨_, rfl, hh⟩
            · intro v hv; cases hv; exact ⟨_, rfl, hs⟩
            · intro v hv; cases hv; exact Or.inl rfl
          | some v =>
            change (checkBrightness v >>= fun _ => _) = _ at h
            rcases checkInt_cases v 0 100 with h3 | h3 | h3
            · unfold checkBrightness at h
              rw [h3] at h
              cases h
              have hb := ((checkInt_ok_iff _ _ _).mp h3).2
              constructor
              · intro v hv; cases hv; exact ⟨_, rfl, hb⟩
              · intro v hv; cases hv; exact ⟨_, rfl, hh⟩
              · intro v hv; cases hv; exact ⟨_, rfl, hs⟩
              · intro v hv; cases hv; exact Or.inl rfl
            · unfold checkBrightness at h; rw [h3] at h; cases h
            · unfold checkBrightness at h; rw [h3] at h; cases h
        · rw [h2] at h; cases h
        · rw [h2] at h; cases h
      · rw [h1] at h; cases h
      · rw [h1] at h; cases h

/-- C29, newer lights: without a brightness, a colour temperature is sent exactly if it is in the range of the light.  Missing:
NaN (`C29_nan`) and the brightness, which is not checked (`C29_smart_temp_brightness`). -/
theorem C29_smart_color_temp_partial (l : Light) (temp : Num) (hn : temp ≠ .nan) :
    (∀ lo hi, l.tempRange = some (lo, hi) → InRange temp lo hi →
      smartColorTemp l temp none = .ok (setInfo [("color_temp", .num temp)])) ∧
    (∀ lo hi, l.tempRange = some (lo, hi) → ¬ InRange temp lo hi → ∃ e, smartColorTemp l temp none = .error e) ∧
    (l.tempRange = none → smartColorTemp l temp none = .error .kasa) := by
  refine ⟨?_, ?_, ?_⟩
  · intro lo hi hl hr
    unfold smartColorTemp
    rw [hl]
    simp only [(refuseOutside_ok_iff temp lo hi (.other "ValueError")).mpr (Or.inr hr)]
    rfl
  · intro lo hi hl hr
    obtain ⟨e, he, -⟩ := refuseOutside_error (e := .other "ValueError") hn hr
    refine ⟨e, ?_⟩
    unfold smartColorTemp
    rw [hl]
    simp only [he]
    rfl
  · intro hl
    unfold smartColorTemp
    rw [hl]

/-- C29 is false of the brightness given with a colour temperature on newer lights: any is sent. -/
theorem C29_smart_temp_brightness (l : Light) (lo hi : Int) (temp x : Num) (hl : l.tempRange = some (lo, hi))
    (hr : InRange temp lo hi) (hx : x.truthy = true) :
    smartColorTemp l temp (some x) = .ok (setInfo [("color_temp", .num temp), ("brightness", .num x)]) := by
  unfold smartColorTemp
  rw [hl]
  simp only [(refuseOutside_ok_iff temp lo hi (.other "ValueError")).mpr (Or.inr hr), bind, Except.bind, hx, if_true]
  rfl

/-- C29, newer lights: setting a whole state with brightness 0 turns the light off and does not send the brightness; else
`device_on` is as given, or true. -/
theorem C29_smart_state_partial (s : State) :
    (isZero s.brightness = true → Dict.get? (smartState s).params "device_on" = some (.num (.bool false)) ∧
      Dict.get? (smartState s).params "brightness" = none) ∧
    (isZero s.brightness = false →
      Dict.get? (smartState s).params "device_on" = some (.num (.bool (s.lightOn.getD true))) ∧
      Dict.get? (smartState s).params "brightness" = s.brightness.map .num ∧
      Dict.get? (smartState s).params "light_on" = none) := by
  obtain ⟨a, b, c, d, e, f⟩ := s
  constructor
  · intro h
    unfold smartState
    simp only [h, if_true]
    constructor
    · exact Dict.get?_set_self _ _ _
    · cases b with
      | none => cases h
      | some x =>
        unfold setInfo
        simp only
        rw [Dict.get?_set_ne _ _ (by decide)]
        cases a <;> cases c <;> cases d <;> cases e <;> cases f <;> rfl
  · intro h
    unfold smartState
    simp only [h, Bool.false_eq_true, if_false]
    cases a with
    | none =>
      refine ⟨Dict.get?_set_self _ _ _, ?_, ?_⟩
      · cases b <;> cases c <;> cases d <;> cases e <;> cases f <;> rfl
      · cases b <;> cases c <;> cases d <;> cases e <;> cases f <;> rfl
    | some on =>
      refine ⟨Dict.get?_set_self _ _ _, ?_, ?_⟩
      · cases b <;> cases c <;> cases d <;> cases e <;> cases f <;> rfl
      · cases b <;> cases c <;> cases d <;> cases e <;> cases f <;> rfl

/-- C29 is false of setting a whole state on newer lights: nothing in it is checked. -/
theorem C29_smart_state_unchecked (x hue sat temp : Num) (hx : x.value ≠ some 0) :
    let c := smartState { brightness := some x, hue := some hue, saturation := some sat, colorTemp := some temp }
    Dict.get? c.params "brightness" = some (.num x) ∧ Dict.get? c.params "hue" = some (.num hue) ∧
      Dict.get? c.params "saturation" = some (.num sat) ∧ Dict.get? c.params "color_temp" = some (.num temp) := by
  have hz : isZero (some x) = false := by unfold isZero Num.eq; simpa using hx
  simp only [smartState, hz]
  exact ⟨rfl, rfl, rfl, rfl⟩

/-- C29: a state with brightness 0 that also says on is sent with both, `light_on` and `device_on`, in contradiction. -/
theorem C29_smart_state_contradiction (x : Num) (hx : x.value = some 0) :
    (smartState { lightOn := some true, brightness := some x }).params =
      [("light_on", .num (.bool true)), ("device_on", .num (.bool false))] := by
  have hz : isZero (some x) = true := by unfold isZero Num.eq; simpa using hx
  simp only [smartState, hz]
  rfl

/-! ### Examples -/

def demoBulb : Bulb := ⟨"smartlife.iot.smartbulb.lightingservice", "transition_light_state", true, true, true, "KL130(EU)"⟩
example : (setLightState demoBulb [] (some (.int 100))).isOk = true ∧
    (setLightState demoBulb [("brightness", .num (.int 5))] none).isOk = true := by decide +kernel
example : (setHsv demoBulb (.int 361) (.int 0) none none).isOk = false := by decide +kernel
example : (setHsv demoBulb (.int 360) (.int 100) (some (.int 100)) none).isOk = true := by decide +kernel
example : (setHsv demoBulb (.float 12) (.int 100) none none).isOk = false := by decide +kernel
example : (setColorTemp demoBulb (.int 2499) none none).isOk = false := by decide +kernel
example : (setColorTemp demoBulb (.int 9000) (some (.int 5)) (some (.int 100))).isOk = true := by decide +kernel
example : (setBrightness demoBulb (.int 101) none).isOk = false := by decide +kernel
example : (dimmerState 30 { brightness := some (.int 55) }).isOk = true := by decide +kernel
example : (dimmerState 30 { brightness := some (.int 55), transition := some (.int (-3)) }).isOk = false := by decide +kernel
example : (smartBrightness ⟨true, true, none, some .strip⟩ (.int 55)).isOk = true := by decide +kernel
example : InRange (.int 55) 0 100 := ⟨55, rfl, by decide +kernel, by decide +kernel⟩

end Kasa.Lights
