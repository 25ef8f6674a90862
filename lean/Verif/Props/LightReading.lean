import Verif.Props.Lights
import Verif.Spec.LightReading
/-!
# C66: a light shows what it was set to
-/

namespace Kasa.LightReading
open Lights LightsSpec LightReadingSpec

/-! ## Helper lemmas -/

theorem setLightState_params {b : Bulb} {state : Info} {t : Option Num} {c : Command}
    (h : setLightState b state t = .ok c) (hw : Dict.WF state) :
    c.target = b.service ∧ c.method = b.method ∧ Dict.WF c.params ∧
      (∀ k, k ≠ "transition_period" → k ≠ "on_off" → k ≠ "ignore_default" → Dict.get? c.params k = Dict.get? state k) ∧
      Dict.get? c.params "on_off" = some ((Dict.get? state "on_off").getD (.num (.int 1))) := by
  have hc : checkState state = .ok () := by
    cases hc : checkState state with
    | ok u => rfl
    | error e => rw [setLightState_error b state t e hc] at h; cases h
  obtain ⟨c', g1, g2, g3, g4, g5, -⟩ := setLightState_ok b state t hc
  rw [g1] at h
  cases h
  refine ⟨g2, g3, ?_, g4, g5⟩
  have hdef : ∀ st : Info, Dict.WF st → Dict.WF (defaultOn st) := by
    intro st hst
    unfold defaultOn
    split
    · exact hst
    · exact Dict.WF_set hst _ _
  unfold setLightState at g1
  cases t with
  | none =>
    simp only at g1
    rw [hc] at g1
    cases g1
    exact Dict.WF_set (hdef _ hw) _ _
  | some x =>
    simp only at g1
    cases hc' : checkState (Dict.set state "transition_period" (.num x)) with
    | error e => rw [hc'] at g1; cases g1
    | ok u =>
      rw [hc'] at g1
      cases g1
      exact Dict.WF_set (hdef _ (Dict.WF_set hw _ _)) _ _

/-- A bulb after one of its own commands. -/
theorem bulbObey_get {b : Bulb} {state : Info} {t : Option Num} {c : Command} (d : Info)
    (h : setLightState b state t = .ok c) (hw : Dict.WF state) :
    (∀ k, k ≠ "transition_period" → k ≠ "on_off" → k ≠ "ignore_default" →
      Dict.get? (bulbObey b d c) k = (Dict.get? state k).or (Dict.get? d k)) ∧
    Dict.get? (bulbObey b d c) "on_off" = some ((Dict.get? state "on_off").getD (.num (.int 1))) := by
  obtain ⟨h1, h2, h3, h4, h5⟩ := setLightState_params h hw
  unfold bulbObey
  rw [if_pos ⟨h1, h2⟩]
  constructor
  · intro k k1 k2 k3
    rw [Dict.get?_update h3, h4 k k1 k2 k3]
  · rw [Dict.get?_update h3, h5]
    rfl

theorem holds_of {b : Bulb} {state : Info} {t : Option Num} {c : Command} {d : Info} {p q : Lamp}
    (h : setLightState b state t = .ok c) (hw : Dict.WF state) (hd : BulbHolds d p)
    (h1 : (Dict.get? state "on_off").getD (.num (.int 1)) = .num (.int (if q.on then 1 else 0)))
    (h2 : (Dict.get? state "brightness").getD (.num (.int p.brightness)) = .num (.int q.brightness))
    (h3 : (Dict.get? state "hue").getD (.num (.int p.hue)) = .num (.int q.hue))
    (h4 : (Dict.get? state "saturation").getD (.num (.int p.saturation)) = .num (.int q.saturation))
    (h5 : (Dict.get? state "color_temp").getD (.num (.int p.colorTemp)) = .num (.int q.colorTemp)) :
    BulbHolds (bulbObey b d c) q := by
  obtain ⟨g1, g2⟩ := bulbObey_get d h hw
  have hor : ∀ (a : Option PyV) (x y : PyV), a.getD x = y → a.or (some x) = some y := by
    intro a x y hxy
    cases a with
    | none => exact congrArg some hxy
    | some z => exact congrArg some hxy
  refine ⟨by rw [g2, h1], ?_, ?_, ?_, ?_⟩
  · rw [g1 _ (by decide) (by decide) (by decide), hd.brightness]; exact hor _ _ _ h2
  · rw [g1 _ (by decide) (by decide) (by decide), hd.hue]; exact hor _ _ _ h3
  · rw [g1 _ (by decide) (by decide) (by decide), hd.saturation]; exact hor _ _ _ h4
  · rw [g1 _ (by decide) (by decide) (by decide), hd.colorTemp]; exact hor _ _ _ h5

theorem isZero_int (x : Int) : isZero (some (.int x)) = decide (x = 0) := by
  unfold isZero Num.eq Num.value
  simp only [Option.some.injEq]
  congr 1
  apply propext
  constructor
  · intro h; exact_mod_cast h
  · intro h; exact_mod_cast h

theorem setHsv_state {b : Bulb} {hue sat : Num} {v t : Option Num} {c : Command} (h : setHsv b hue sat v t = .ok c) :
    setLightState b ([("hue", .num hue), ("saturation", .num sat), ("color_temp", .num (.int 0))] ++
      (match v with | some x => [("brightness", .num x)] | none => [])) t = .ok c := by
  unfold setHsv at h
  cases hc : b.isColor with
  | false => rw [hc] at h; cases h
  | true =>
    simp only [hc, Bool.not_true, Bool.false_eq_true, if_false] at h
    cases h1 : checkInt hue 0 360 with
    | error e => rw [h1] at h; cases h
    | ok u =>
      cases h2 : checkInt sat 0 100 with
      | error e => rw [h1, h2] at h; cases h
      | ok u' =>
        rw [h1, h2] at h
        cases v with
        | none => exact h
        | some x =>
          cases h3 : checkBrightness x with
          | error e => simp only [h3] at h; cases h
          | ok u'' =>
            simp only [h3] at h
            exact h

theorem setColorTemp_state {b : Bulb} {temp : Num} {v t : Option Num} {c : Command}
    (h : setColorTemp b temp v t = .ok c) :
    setLightState b ([("color_temp", .num temp)] ++
      (match v with | some x => [("brightness", .num x)] | none => [])) t = .ok c := by
  unfold setColorTemp at h
  cases hc : b.isVariableTemp with
  | false => rw [hc] at h; cases h
  | true =>
    simp only [hc, Bool.not_true, Bool.false_eq_true, if_false] at h
    cases h1 : refuseOutside temp (tempRange b.model).1 (tempRange b.model).2 (.other "ValueError") with
    | error e => rw [h1] at h; cases h
    | ok u =>
      rw [h1] at h
      cases v with
      | none => exact h
      | some x => exact h

theorem only_ok {α : Type} {c : Bool} {x : Except Exc α} {v : α} (h : c = true → x = .ok v) :
    only c x = .ok (if c = true then some v else none) := by
  cases c with
  | false => rfl
  | true =>
    rw [h rfl]
    rfl

/-! ## Legacy bulbs -/

/-- One accepted operation does to the bulb what it should do to the light. -/
theorem C66_bulb_step (b : Bulb) (d : Info) (p : Lamp) (op : Op) (c : Command) (hd : BulbHolds d p)
    (h : bulbSend b op = .ok c) : BulbHolds (bulbObey b d c) (p.bulb op) := by
  cases op with
  | brightness x t =>
    unfold bulbSend setBrightness setState at h
    simp only [isZero_int] at h
    by_cases hx : x = 0
    · simp only [hx, decide_true, if_true] at h
      refine holds_of (state := [("on_off", .num (.int 0))]) h (by simp [Dict.WF, Dict.keys]) hd ?_ ?_ ?_ ?_ ?_ <;>
        simp [Lamp.bulb, hx, Dict.get?]
    · simp only [hx, decide_false, Bool.false_eq_true, if_false] at h
      refine holds_of (state := [("brightness", .num (.int x)), ("on_off", .num (.int 1))]) h
        (by simp [Dict.WF, Dict.keys]) hd ?_ ?_ ?_ ?_ ?_ <;>
        simp [Lamp.bulb, hx, Dict.get?]
  | hsv hue sat v t =>
    have h' := setHsv_state h
    cases v with
    | none =>
      refine holds_of h' (by simp [Dict.WF, Dict.keys]) hd ?_ ?_ ?_ ?_ ?_ <;> simp [Lamp.bulb, Dict.get?]
    | some x =>
      refine holds_of h' (by simp [Dict.WF, Dict.keys]) hd ?_ ?_ ?_ ?_ ?_ <;> simp [Lamp.bulb, Dict.get?]
  | colorTemp x v t =>
    have h' := setColorTemp_state h
    cases v with
    | none =>
      refine holds_of h' (by simp [Dict.WF, Dict.keys]) hd ?_ ?_ ?_ ?_ ?_ <;> simp [Lamp.bulb, Dict.get?]
    | some y =>
      refine holds_of h' (by simp [Dict.WF, Dict.keys]) hd ?_ ?_ ?_ ?_ ?_ <;> simp [Lamp.bulb, Dict.get?]
  | state s =>
    obtain ⟨on, br, hue, sat, temp, t⟩ := s
    have h' : setState b (Setting.toState ⟨on, br, hue, sat, temp, t⟩) = .ok c := h
    obtain ⟨d1, d2, d3, d4, d5, d6, d7⟩ := get?_stateDict (Setting.toState ⟨on, br, hue, sat, temp, t⟩)
    have hopt : ∀ (o : Option Int) (x : Int), ((o.map Num.int).map PyV.num).getD (.num (.int x)) =
        .num (.int (o.getD x)) := by
      intro o x
      cases o <;> rfl
    unfold setState at h'
    cases hz : isZero (br.map Num.int) with
    | true =>
      have hbr : br = some 0 := by
        cases br with
        | none => cases hz
        | some x =>
          have := (isZero_int x).symm.trans hz
          rw [of_decide_eq_true this]
      have hz' : isZero (Setting.toState ⟨on, br, hue, sat, temp, t⟩).brightness = true := hz
      simp only [hz', if_true] at h'
      refine holds_of h' (Dict.WF_erase (Dict.WF_erase (Dict.WF_set d7 _ _) _) _) hd ?_ ?_ ?_ ?_ ?_
      · rw [Dict.get?_erase_ne _ (by decide), Dict.get?_erase_ne _ (by decide), Dict.get?_set_self]
        subst hbr
        cases on with
        | none => rfl
        | some on => cases on <;> rfl
      · rw [Dict.get?_erase_ne _ (by decide), Dict.get?_erase_self (Dict.WF_set d7 _ _)]
        subst hbr
        rfl
      · rw [Dict.get?_erase_ne _ (by decide), Dict.get?_erase_ne _ (by decide), Dict.get?_set_ne _ _ (by decide), d3]
        exact hopt _ _
      · rw [Dict.get?_erase_ne _ (by decide), Dict.get?_erase_ne _ (by decide), Dict.get?_set_ne _ _ (by decide), d4]
        exact hopt _ _
      · rw [Dict.get?_erase_ne _ (by decide), Dict.get?_erase_ne _ (by decide), Dict.get?_set_ne _ _ (by decide), d5]
        exact hopt _ _
    | false =>
      have hbr : br ≠ some 0 := by
        rintro rfl
        have := (isZero_int 0).symm.trans hz
        cases this
      have hz' : isZero (Setting.toState ⟨on, br, hue, sat, temp, t⟩).brightness = false := hz
      simp only [hz', Bool.false_eq_true, if_false] at h'
      refine holds_of h' (Dict.WF_erase (Dict.WF_set d7 _ _) _) hd ?_ ?_ ?_ ?_ ?_
      · rw [Dict.get?_erase_ne _ (by decide), Dict.get?_set_self]
        have : (br != some 0) = true := by simpa using hbr
        show PyV.num (.int (onValue on)) = .num (.int (if (on.getD true && (br != some 0)) = true then 1 else 0))
        rw [this]
        cases on with
        | none => rfl
        | some on => cases on <;> rfl
      · rw [Dict.get?_erase_ne _ (by decide), Dict.get?_set_ne _ _ (by decide), d2]
        show _ = PyV.num (.int (if br = some 0 then _ else _))
        rw [if_neg hbr]
        exact hopt _ _
      · rw [Dict.get?_erase_ne _ (by decide), Dict.get?_set_ne _ _ (by decide), d3]
        exact hopt _ _
      · rw [Dict.get?_erase_ne _ (by decide), Dict.get?_set_ne _ _ (by decide), d4]
        exact hopt _ _
      · rw [Dict.get?_erase_ne _ (by decide), Dict.get?_set_ne _ _ (by decide), d5]
        exact hopt _ _
  | switch on t =>
    unfold bulbSend bulbSwitch at h
    refine holds_of h (by simp [Dict.WF, Dict.keys]) hd ?_ ?_ ?_ ?_ ?_ <;>
        cases on <;> simp [Lamp.bulb, Dict.get?]

/-- A bulb in the state of the light is read as such. -/
theorem C66_bulb_reads (b : Bulb) (d : Info) (p : Lamp) (hd : BulbHolds d p) (hb : b.isColor = true → b.isDimmable = true) :
    bulbHook b none (bulbReport d) = .ok (shown b.isDimmable b.isColor b.isVariableTemp p).toState ∧
      bulbIsOn (bulbReport d) = .ok p.on ∧
      (b.isDimmable = true → bulbBrightness b none (bulbReport d) = .ok (.int p.brightness)) ∧
      (b.isColor = true → bulbHsv b none (bulbReport d) = .ok (.int p.hue, .int p.saturation, .int p.brightness)) ∧
      (b.isVariableTemp = true → bulbColorTemp b (bulbReport d) = .ok (.int p.colorTemp)) := by
  have hls : ∃ ls, lightState (bulbReport d) = .ok ls ∧ BulbHolds ls p := by
    obtain ⟨on, br, hue, sat, temp⟩ := p
    cases on with
    | true =>
      have hr : bulbReport d = d := by
        unfold bulbReport
        rw [hd.on]
        rfl
      refine ⟨d, ?_, hd⟩
      rw [hr]
      unfold lightState item
      rw [hd.on]
      rfl
    | false =>
      have hr : bulbReport d = [("on_off", .num (.int 0)), ("dft_on_state", .obj d)] := by
        unfold bulbReport
        rw [hd.on]
        rfl
      refine ⟨Dict.set d "on_off" (.num (.int 0)), ?_, ?_⟩
      · rw [hr]
        rfl
      · exact ⟨Dict.get?_set_self _ _ _, (Dict.get?_set_ne _ _ (by decide)).trans hd.brightness,
          (Dict.get?_set_ne _ _ (by decide)).trans hd.hue, (Dict.get?_set_ne _ _ (by decide)).trans hd.saturation,
          (Dict.get?_set_ne _ _ (by decide)).trans hd.colorTemp⟩
  obtain ⟨ls, hls, hh⟩ := hls
  have h1 : bulbIsOn (bulbReport d) = .ok p.on := by
    unfold bulbIsOn
    rw [hls]
    show (do let v ← item ls "on_off"; pure (onOff (some v)) : Except Exc Bool) = _
    unfold item
    rw [hh.on]
    cases p.on <;> rfl
  have h2 : b.isDimmable = true → bulbBrightness b none (bulbReport d) = .ok (.int p.brightness) := by
    intro hdim
    unfold bulbBrightness
    simp only [hdim, Bool.not_true, Bool.false_eq_true, if_false, hls]
    show (do let v ← item ls "brightness"; pyInt v : Except Exc Num) = _
    unfold item
    rw [hh.brightness]
    rfl
  have h3 : b.isColor = true → bulbHsv b none (bulbReport d) = .ok (.int p.hue, .int p.saturation, .int p.brightness) := by
    intro hcol
    unfold bulbHsv
    simp only [hcol, Bool.not_true, Bool.false_eq_true, if_false, hls, h2 (hb hcol)]
    show (do let v ← item ls "hue"; let w ← item ls "saturation"; pure (toNum v, toNum w, Num.int p.brightness) :
      Except Exc (Num × Num × Num)) = _
    unfold item
    rw [hh.hue, hh.saturation]
    rfl
  have h4 : b.isVariableTemp = true → bulbColorTemp b (bulbReport d) = .ok (.int p.colorTemp) := by
    intro htemp
    unfold bulbColorTemp
    simp only [htemp, Bool.not_true, Bool.false_eq_true, if_false, hls]
    show (do let v ← item ls "color_temp"; pyInt v : Except Exc Num) = _
    unfold item
    rw [hh.colorTemp]
    rfl
  refine ⟨?_, h1, h2, h3, h4⟩
  unfold bulbHook
  rw [h1]
  cases hon : p.on with
  | false =>
    unfold shown
    rw [hon]
    rfl
  | true =>
    have e1 : only b.isDimmable (bulbBrightness b none (bulbReport d)) =
        .ok (if b.isDimmable = true then some (.int p.brightness) else none) :=
      only_ok h2
    have e2 : only b.isColor (bulbHsv b none (bulbReport d)) =
        .ok (if b.isColor = true then some (.int p.hue, .int p.saturation, .int p.brightness) else none) :=
      only_ok h3
    have e3 : only b.isVariableTemp (bulbColorTemp b (bulbReport d)) =
        .ok (if b.isVariableTemp = true then some (.int p.colorTemp) else none) :=
      only_ok h4
    show (do
      let brightness ← only b.isDimmable (bulbBrightness b none (bulbReport d))
      let hsv ← only b.isColor (bulbHsv b none (bulbReport d))
      let colorTemp ← only b.isVariableTemp (bulbColorTemp b (bulbReport d))
      pure { lightOn := some true, brightness, hue := hsv.map (·.1), saturation := hsv.map (·.2.1), colorTemp } :
        Except Exc State) = _
    rw [e1, e2, e3]
    unfold shown
    rw [hon]
    cases b.isDimmable <;> cases b.isColor <;> cases b.isVariableTemp <;> rfl

/-- **C66** After any history of operations on a legacy bulb that does what it is told, `light.state`, `is_on`,
`brightness`, `hsv` and `color_temp` are those of a light on which just the accepted operations were performed. -/
theorem C66_bulb_history (b : Bulb) (d : Info) (p : Lamp) (ops : List Op) (hd : BulbHolds d p)
    (hb : b.isColor = true → b.isDimmable = true) :
    let report := bulbReport (after (bulbSend b) (bulbObey b) d ops)
    let q := lampAfter (bulbSend b) Lamp.bulb p ops
    bulbHook b none report = .ok (shown b.isDimmable b.isColor b.isVariableTemp q).toState ∧
      bulbIsOn report = .ok q.on ∧
      (b.isDimmable = true → bulbBrightness b none report = .ok (.int q.brightness)) ∧
      (b.isColor = true → bulbHsv b none report = .ok (.int q.hue, .int q.saturation, .int q.brightness)) ∧
      (b.isVariableTemp = true → bulbColorTemp b report = .ok (.int q.colorTemp)) := by
  have hold : BulbHolds (after (bulbSend b) (bulbObey b) d ops) (lampAfter (bulbSend b) Lamp.bulb p ops) := by
    unfold after lampAfter
    induction ops generalizing d p with
    | nil => exact hd
    | cons op ops ih =>
      rw [List.foldl_cons, List.foldl_cons]
      apply ih
      cases h : bulbSend b op with
      | error e => exact hd
      | ok c => exact C66_bulb_step b d p op c hd h
  exact C66_bulb_reads b _ _ hold hb

/-! ## Newer lights -/

theorem smartObey_get (d : Info) (params : Info) (hw : Dict.WF params) (k : String) :
    Dict.get? (smartObey d (setInfo params)) k = (Dict.get? params k).or (Dict.get? d k) := by
  unfold smartObey setInfo
  rw [if_pos rfl]
  exact Dict.get?_update hw k

theorem smartHolds_of {params d : Info} {p q : Lamp} (hw : Dict.WF params) (hd : SmartHolds d p)
    (h1 : (Dict.get? params "device_on").getD (.num (.bool p.on)) = .num (.bool q.on))
    (h2 : (Dict.get? params "brightness").getD (.num (.int p.brightness)) = .num (.int q.brightness))
    (h3 : (Dict.get? params "hue").getD (.num (.int p.hue)) = .num (.int q.hue))
    (h4 : (Dict.get? params "saturation").getD (.num (.int p.saturation)) = .num (.int q.saturation))
    (h5 : (Dict.get? params "color_temp").getD (.num (.int p.colorTemp)) = .num (.int q.colorTemp)) :
    SmartHolds (smartObey d (setInfo params)) q := by
  have hor : ∀ (a : Option PyV) (x y : PyV), a.getD x = y → a.or (some x) = some y := by
    intro a x y hxy
    cases a with
    | none => exact congrArg some hxy
    | some z => exact congrArg some hxy
  refine ⟨?_, ?_, ?_, ?_, ?_⟩
  · rw [smartObey_get _ _ hw, hd.on]; exact hor _ _ _ h1
  · rw [smartObey_get _ _ hw, hd.brightness]; exact hor _ _ _ h2
  · rw [smartObey_get _ _ hw, hd.hue]; exact hor _ _ _ h3
  · rw [smartObey_get _ _ hw, hd.saturation]; exact hor _ _ _ h4
  · rw [smartObey_get _ _ hw, hd.colorTemp]; exact hor _ _ _ h5

theorem smartState_params (s : State) : ∃ params, smartState s = setInfo params ∧ Dict.WF params ∧
    Dict.get? params "device_on" = some (.num (.bool (s.lightOn.getD true && !isZero s.brightness))) ∧
    Dict.get? params "brightness" = (if isZero s.brightness then none else s.brightness.map .num) ∧
    Dict.get? params "hue" = s.hue.map .num ∧ Dict.get? params "saturation" = s.saturation.map .num ∧
    Dict.get? params "color_temp" = s.colorTemp.map .num := by
  refine ⟨_, rfl, ?_⟩
  cases hz : isZero s.brightness with
  | true =>
    obtain ⟨a, b, c, d, e, f⟩ := s
    cases a <;> cases b <;> cases c <;> cases d <;> cases e <;> cases f <;>
      first
      | cases hz
      | (simp [Dict.WF, stateDict, Dict.keys, Dict.set, Dict.erase, Dict.get?])
  | false =>
    obtain ⟨a, b, c, d, e, f⟩ := s
    cases a <;> cases b <;> cases c <;> cases d <;> cases e <;> cases f <;>
      simp [Dict.WF, stateDict, Dict.keys, Dict.set, Dict.erase, Dict.get?]

theorem smartBrightness_cases {l : Light} {x : Int} {c : Command} (he : l.effect = none)
    (h : smartBrightness l (.int x) = .ok c) :
    c = setInfo (if x = 0 then [("device_on", .num (.bool false))] else [("brightness", .num (.int x))]) := by
  unfold smartBrightness at h
  cases hb : l.hasBrightness with
  | false => rw [hb] at h; cases h
  | true =>
    simp only [hb, Bool.not_true, Bool.false_eq_true, if_false, he] at h
    have hi : (Num.int x).isInt = true := rfl
    simp only [hi, Bool.not_true, Bool.false_eq_true, if_false] at h
    cases hbt : (Num.int x).between 0 100 with
    | error e => rw [hbt] at h; cases h
    | ok r =>
      rw [hbt] at h
      cases r with
      | false => cases h
      | true =>
        have hz : (Num.int x).eq 0 = decide (x = 0) := isZero_int x
        simp only [bind, Except.bind, if_true] at h
        by_cases hx : x = 0
        · rw [if_pos hx]
          rw [hz] at h
          simp only [hx, decide_true, if_true] at h
          cases h
          rfl
        · rw [if_neg hx]
          rw [hz] at h
          simp only [hx, decide_false, Bool.false_eq_true, if_false] at h
          cases h
          rfl

theorem smartHsv_cases {l : Light} {hue sat : Num} {v : Option Num} {c : Command} (h : smartHsv l hue sat v = .ok c) :
    c = setInfo ([("color_temp", .num (.int 0)), ("hue", .num hue), ("saturation", .num sat)] ++
      (match v with | some x => [("brightness", .num x)] | none => [])) := by
  unfold smartHsv at h
  cases hc : l.hasColor with
  | false => rw [hc] at h; cases h
  | true =>
    simp only [hc, Bool.not_true, Bool.false_eq_true, if_false] at h
    cases h1 : checkInt hue 0 360 with
    | error e => rw [h1] at h; cases h
    | ok u =>
      cases h2 : checkInt sat 0 100 with
      | error e => rw [h1, h2] at h; cases h
      | ok u' =>
        rw [h1, h2] at h
        cases v with
        | none => cases h; rfl
        | some x =>
          cases h3 : checkBrightness x with
          | error e => simp only [h3] at h; cases h
          | ok u'' =>
            simp only [h3] at h
            cases h
            rfl

theorem smartColorTemp_cases {l : Light} {temp : Num} {v : Option Num} {c : Command} (h : smartColorTemp l temp v = .ok c) :
    c = setInfo ([("color_temp", .num temp)] ++
      (match v with | some x => if x.truthy then [("brightness", .num x)] else [] | none => [])) := by
  unfold smartColorTemp at h
  cases hr : l.tempRange with
  | none => rw [hr] at h; cases h
  | some r =>
    rw [hr] at h
    obtain ⟨lo, hi⟩ := r
    simp only at h
    cases h1 : refuseOutside temp lo hi (.other "ValueError") with
    | error e => rw [h1] at h; cases h
    | ok u =>
      rw [h1] at h
      cases v with
      | none => cases h; rfl
      | some x => cases h; rfl

/-- One accepted operation does to a newer light, without an active effect, what it should do. -/
theorem C66_smart_step (l : Light) (d : Info) (p : Lamp) (op : Op) (c : Command) (he : l.effect = none)
    (hd : SmartHolds d p) (h : smartSend l op = .ok c) : SmartHolds (smartObey d c) (p.smart op) := by
  cases op with
  | brightness x t =>
    rw [smartBrightness_cases he h]
    by_cases hx : x = 0
    · rw [if_pos hx]
      refine smartHolds_of (by simp [Dict.WF, Dict.keys]) hd ?_ ?_ ?_ ?_ ?_ <;> simp [Lamp.smart, hx, Dict.get?]
    · rw [if_neg hx]
      refine smartHolds_of (by simp [Dict.WF, Dict.keys]) hd ?_ ?_ ?_ ?_ ?_ <;> simp [Lamp.smart, hx, Dict.get?]
  | hsv hue sat v t =>
    rw [smartHsv_cases h]
    cases v with
    | none =>
      refine smartHolds_of (by simp [Dict.WF, Dict.keys]) hd ?_ ?_ ?_ ?_ ?_ <;> simp [Lamp.smart, Dict.get?]
    | some x =>
      refine smartHolds_of (by simp [Dict.WF, Dict.keys]) hd ?_ ?_ ?_ ?_ ?_ <;> simp [Lamp.smart, Dict.get?]
  | colorTemp x v t =>
    rw [smartColorTemp_cases h]
    cases v with
    | none =>
      refine smartHolds_of (by simp [Dict.WF, Dict.keys]) hd ?_ ?_ ?_ ?_ ?_ <;> simp [Lamp.smart, Dict.get?]
    | some y =>
      by_cases hy : y = 0
      · subst hy
        refine smartHolds_of (by simp [Dict.WF, Dict.keys, Num.truthy]) hd ?_ ?_ ?_ ?_ ?_ <;>
          simp [Lamp.smart, Dict.get?, Num.truthy]
      · refine smartHolds_of (by simp [Dict.WF, Dict.keys, Num.truthy, hy]) hd ?_ ?_ ?_ ?_ ?_ <;>
          simp [Lamp.smart, Dict.get?, Num.truthy, hy]
  | state s =>
    cases h
    obtain ⟨params, h1, h2, h3, h4, h5, h6, h7⟩ := smartState_params s.toState
    rw [h1]
    obtain ⟨on, br, hue, sat, temp, t⟩ := s
    have hopt : ∀ (o : Option Int) (x : Int), ((o.map Num.int).map PyV.num).getD (.num (.int x)) =
        .num (.int (o.getD x)) := by
      intro o x
      cases o <;> rfl
    have hz : isZero (br.map Num.int) = decide (br = some 0) := by
      cases br with
      | none => rfl
      | some x =>
        rw [Option.map_some, isZero_int]
        simp
    refine smartHolds_of h2 hd ?_ ?_ ?_ ?_ ?_
    · rw [h3]
      show PyV.num (.bool (on.getD true && !isZero (br.map Num.int))) = .num (.bool (on.getD true && br != some 0))
      rw [hz]
      by_cases hb : br = some 0 <;> simp [hb]
    · rw [h4]
      show (if isZero (br.map Num.int) = true then none else (br.map Num.int).map PyV.num).getD _ =
        PyV.num (.int (if br = some 0 then p.brightness else br.getD p.brightness))
      rw [hz]
      by_cases hb : br = some 0
      · simp [hb]
      · simp only [hb, decide_false, Bool.false_eq_true, if_false]
        exact hopt _ _
    · rw [h5]; exact hopt _ _
    · rw [h6]; exact hopt _ _
    · rw [h7]; exact hopt _ _
  | switch on t =>
    cases h
    refine smartHolds_of (by simp [Dict.WF, Dict.keys]) hd ?_ ?_ ?_ ?_ ?_ <;> simp [Lamp.smart, Dict.get?]

/-- A newer light in the state of the light is read as such. -/
theorem C66_smart_reads (l : Light) (r : Except Exc Num) (d : Info) (p : Lamp) (he : l.effect = none) (hd : SmartHolds d p) :
    smartHook l r d = .ok (shown l.hasBrightness l.hasColor l.tempRange.isSome p).toState ∧
      smartIsOn d = p.on ∧
      (l.hasBrightness = true → smartBrightnessOf l r d = .ok (.int p.brightness)) ∧
      (l.hasColor = true → smartHsvOf l d = .ok (.int p.hue, .int p.saturation, .int p.brightness)) ∧
      (l.tempRange.isSome = true → smartColorTempOf l d = .ok (.int p.colorTemp)) := by
  have h1 : smartIsOn d = p.on := by
    unfold smartIsOn
    rw [hd.on]
    rfl
  have h2 : l.hasBrightness = true → smartBrightnessOf l r d = .ok (.int p.brightness) := by
    intro hb
    unfold smartBrightnessOf item
    simp only [hb, Bool.not_true, Bool.false_eq_true, if_false, he, hd.brightness]
    rfl
  have h3 : l.hasColor = true → smartHsvOf l d = .ok (.int p.hue, .int p.saturation, .int p.brightness) := by
    intro hc
    unfold smartHsvOf getOrZero
    simp only [hc, Bool.not_true, Bool.false_eq_true, if_false, hd.hue, hd.saturation, hd.brightness]
    rfl
  have h4 : l.tempRange.isSome = true → smartColorTempOf l d = .ok (.int p.colorTemp) := by
    intro ht
    unfold smartColorTempOf item
    have : l.tempRange.isNone = false := by
      cases hr : l.tempRange with
      | none => rw [hr] at ht; cases ht
      | some x => rfl
    simp only [this, Bool.false_eq_true, if_false, hd.colorTemp]
    rfl
  refine ⟨?_, h1, h2, h3, h4⟩
  unfold smartHook
  rw [h1, only_ok h2, only_ok h3, only_ok h4]
  unfold shown
  cases p.on with
  | false => rfl
  | true =>
    cases l.hasBrightness <;> cases l.hasColor <;> cases l.tempRange.isSome <;> rfl

/-- **C66** The same for newer lights without an active effect. -/
theorem C66_smart_history (l : Light) (r : Except Exc Num) (d : Info) (p : Lamp) (ops : List Op) (he : l.effect = none)
    (hd : SmartHolds d p) :
    let info := after (smartSend l) smartObey d ops
    let q := lampAfter (smartSend l) Lamp.smart p ops
    smartHook l r info = .ok (shown l.hasBrightness l.hasColor l.tempRange.isSome q).toState ∧
      smartIsOn info = q.on ∧
      (l.hasBrightness = true → smartBrightnessOf l r info = .ok (.int q.brightness)) ∧
      (l.hasColor = true → smartHsvOf l info = .ok (.int q.hue, .int q.saturation, .int q.brightness)) ∧
      (l.tempRange.isSome = true → smartColorTempOf l info = .ok (.int q.colorTemp)) := by
  have hold : SmartHolds (after (smartSend l) smartObey d ops) (lampAfter (smartSend l) Lamp.smart p ops) := by
    unfold after lampAfter
    induction ops generalizing d p with
    | nil => exact hd
    | cons op ops ih =>
      rw [List.foldl_cons, List.foldl_cons]
      apply ih
      cases h : smartSend l op with
      | error e => exact hd
      | ok c => exact C66_smart_step l d p op c he hd h
  exact C66_smart_reads l r _ _ he hold

/-! ## Dimmers -/

theorem dimmerTransition_cases {x : Int} {t : Num} {c : Command} (h : dimmerTransition (.int x) t = .ok c) :
    0 ≤ x ∧ ∃ v, c = ⟨"smartlife.iot.dimmer", "set_dimmer_transition", [("brightness", .num (.int x)), ("duration", v)]⟩ := by
  unfold dimmerTransition at h
  cases h1 : checkInt (.int x) 0 100 with
  | error e => rw [h1] at h; cases h
  | ok u =>
    obtain ⟨r, hr, hlo, -⟩ := ((checkInt_ok_iff _ _ _).1 h1).2
    cases hr
    refine ⟨by exact_mod_cast hlo, ?_⟩
    rw [h1] at h
    simp only [bind, Except.bind] at h
    generalize (if t.eq 0 = true then Num.int 1 else t) = t' at h
    split at h
    · cases h
    · cases h2 : t'.gt 0 with
      | error e => rw [h2] at h; cases h
      | ok r =>
        rw [h2] at h
        cases r with
        | false => cases h
        | true => cases h; exact ⟨_, rfl⟩

theorem obey_transition (d : Info) (x : Int) (v : PyV) :
    dimmerObey d ⟨"smartlife.iot.dimmer", "set_dimmer_transition", [("brightness", .num (.int x)), ("duration", v)]⟩ =
      if x = 0 then Dict.set d "relay_state" (.num (.int 0))
      else Dict.set (Dict.set d "relay_state" (.num (.int 1))) "brightness" (.num (.int x)) := by
  unfold dimmerObey
  rw [if_neg (fun h => absurd (show "smartlife.iot.dimmer" = "system" from h.1) (by decide)), if_pos ⟨rfl, rfl⟩]
  show (if onOff (some (.num (.int x))) = true then _ else _) = _
  by_cases hx : x = 0
  · subst hx; rfl
  · rw [if_neg hx, if_pos (by simp [onOff, Num.truthy, hx])]

theorem obey_relay (d : Info) (n : Int) : dimmerObey d (relay n) = Dict.set d "relay_state" (.num (.int n)) := rfl

theorem dimmer_set {d : Info} {p : Lamp} (hd : DimmerHolds d p) (on : Bool) :
    DimmerHolds (Dict.set d "relay_state" (.num (.int (if on = true then 1 else 0)))) { p with on } :=
  ⟨Dict.get?_set_self _ _ _, (Dict.get?_set_ne _ _ (by decide)).trans hd.brightness⟩

theorem dimmer_set_brightness (d : Info) (p : Lamp) (x : Int) :
    DimmerHolds (Dict.set (Dict.set d "relay_state" (.num (.int 1))) "brightness" (.num (.int x)))
      { p with on := true, brightness := x } :=
  ⟨(Dict.get?_set_ne _ _ (by decide)).trans (Dict.get?_set_self _ _ _), Dict.get?_set_self _ _ _⟩

theorem dimmer_off {d : Info} {p : Lamp} {t : Option Num} {c : Command} (hd : DimmerHolds d p)
    (h : dimmerOff t = .ok c) : DimmerHolds (dimmerObey d c) { p with on := false } := by
  cases t with
  | none =>
    cases h
    exact dimmer_set hd false
  | some t =>
    obtain ⟨-, v, rfl⟩ := dimmerTransition_cases h
    rw [obey_transition, if_pos rfl]
    exact dimmer_set hd false

theorem dimmer_on {d : Info} {p : Lamp} {t : Option Num} {c : Command} (hd : DimmerHolds d p) (hp : 0 < p.brightness)
    (h : dimmerOn p.brightness t = .ok c) : DimmerHolds (dimmerObey d c) { p with on := true } := by
  cases t with
  | none =>
    cases h
    exact dimmer_set hd true
  | some t =>
    obtain ⟨-, v, rfl⟩ := dimmerTransition_cases h
    rw [obey_transition, if_neg (by omega)]
    exact dimmer_set_brightness d p p.brightness

theorem dimmer_state {d : Info} {p : Lamp} {s : Setting} {c : Command} (hd : DimmerHolds d p) (hp : 0 < p.brightness)
    (h : dimmerState p.brightness s.toState = .ok c) :
    DimmerHolds (dimmerObey d c) (p.dimmer (.state s)) ∧ 0 < (p.dimmer (.state s)).brightness := by
  obtain ⟨on, br, hue, sat, temp, t⟩ := s
  have hz : isZero (br.map Num.int) = decide (br = some 0) := by
    cases br with
    | none => rfl
    | some x => rw [Option.map_some, isZero_int]; simp
  unfold dimmerState at h
  by_cases hoff : br = some 0 ∨ on = some false
  · have hl : p.dimmer (.state ⟨on, br, hue, sat, temp, t⟩) = { p with on := false } := by
      show (if br = some 0 ∨ on = some false then _ else _) = _
      rw [if_pos hoff]
    rw [hl]
    rw [if_pos (by
      rcases hoff with h0 | h0
      · exact Or.inl (by show isZero (br.map Num.int) = true; rw [hz]; simp [h0])
      · exact Or.inr h0)] at h
    exact ⟨dimmer_off hd h, hp⟩
  · have hl : p.dimmer (.state ⟨on, br, hue, sat, temp, t⟩) = { p with on := true, brightness := br.getD p.brightness } := by
      show (if br = some 0 ∨ on = some false then _ else _) = _
      rw [if_neg hoff]
    rw [hl]
    rw [if_neg (by
      intro h0
      rcases h0 with h0 | h0
      · have : isZero (br.map Num.int) = true := h0
        rw [hz] at this
        exact hoff (Or.inl (of_decide_eq_true this))
      · exact hoff (Or.inr h0))] at h
    cases br with
    | none => exact ⟨dimmer_on hd hp h, hp⟩
    | some x =>
      have hx : x ≠ 0 := fun h0 => hoff (Or.inl (by rw [h0]))
      have ht : (Num.int x).truthy = true := by simp [Num.truthy, hx]
      have h' : (if (Num.int x).truthy = true then
          dimmerTransition (.int x) (match t.map Num.int with | some t => if t.truthy then t else .int 0 | none => .int 0)
          else dimmerOn p.brightness (t.map Num.int)) = .ok c := h
      rw [if_pos ht] at h'
      obtain ⟨h0, v, rfl⟩ := dimmerTransition_cases h'
      rw [obey_transition, if_neg hx]
      refine ⟨dimmer_set_brightness d p x, ?_⟩
      show 0 < x
      omega

/-- One accepted operation does to an updated dimmer what it should do to the light. -/
theorem C66_dimmer_step (d : Info) (p : Lamp) (op : Op) (c : Command) (hd : DimmerHolds d p) (hp : 0 < p.brightness)
    (h : dimmerSend p.brightness op = .ok c) : DimmerHolds (dimmerObey d c) (p.dimmer op) ∧ 0 < (p.dimmer op).brightness := by
  cases op with
  | brightness x t =>
    have := dimmer_state (s := { brightness := some x, transition := t }) hd hp h
    have hl : p.dimmer (.state { brightness := some x, transition := t }) = p.dimmer (.brightness x t) := by
      show (if some x = some 0 ∨ (none : Option Bool) = some false then _ else _) = (if x = 0 then _ else _)
      by_cases hx : x = 0
      · simp [hx]
      · simp [hx]
    rw [hl] at this
    exact this
  | hsv hue sat v t => cases h
  | colorTemp x v t => cases h
  | state s => exact dimmer_state hd hp h
  | switch on t =>
    cases on with
    | true => exact ⟨dimmer_on hd hp h, hp⟩
    | false => exact ⟨dimmer_off hd h, hp⟩

/-- A dimmer in the state of the light is read as such. -/
theorem C66_dimmer_reads (d : Info) (p : Lamp) (hd : DimmerHolds d p) :
    dimmerHook d = .ok (shown true false false p).toState ∧ plugIsOn d = .ok p.on ∧
      dimmerBrightnessOf d = .ok (.int p.brightness) := by
  have h1 : plugIsOn d = .ok p.on := by
    unfold plugIsOn item
    rw [hd.on]
    cases p.on <;> rfl
  have h2 : dimmerBrightnessOf d = .ok (.int p.brightness) := by
    unfold dimmerBrightnessOf
    rw [hd.brightness]
    rfl
  refine ⟨?_, h1, h2⟩
  unfold dimmerHook
  have h3 : Dict.has d "brightness" = true := by
    unfold Dict.has
    rw [hd.brightness]
    rfl
  rw [h1, h2, h3]
  unfold shown
  cases p.on <;> rfl

/-- **C66** The same for dimmers that are updated before each operation. -/
theorem C66_dimmer_history (d : Info) (p : Lamp) (ops : List Op) (hd : DimmerHolds d p) (hp : 0 < p.brightness) :
    let q := dimmerLampAfter p ops
    dimmerHook (dimmerAfter d ops) = .ok (shown true false false q).toState ∧
      plugIsOn (dimmerAfter d ops) = .ok q.on ∧ dimmerBrightnessOf (dimmerAfter d ops) = .ok (.int q.brightness) := by
  have hold : DimmerHolds (dimmerAfter d ops) (dimmerLampAfter p ops) := by
    unfold dimmerAfter dimmerLampAfter
    induction ops generalizing d p with
    | nil => exact hd
    | cons op ops ih =>
      rw [List.foldl_cons, List.foldl_cons]
      have hb := (C66_dimmer_reads d p hd).2.2
      simp only [hb]
      cases h : dimmerSend p.brightness op with
      | error e => exact ih d p hd hp
      | ok c =>
        obtain ⟨h1, h2⟩ := C66_dimmer_step d p op c hd hp h
        exact ih _ _ h1 h2
  exact C66_dimmer_reads _ _ hold

/-- **C66** (what the code does not do) Without an update in between, switching a dimmer on with a transition undoes the
brightness just set: it goes back to the one of the last update. -/
theorem C66_dimmer_stale (d : Info) (x t : Int) (h0 : 0 < x) (hx : x ≤ 100) (h1 : 0 < t) (y : Int) (hy : 0 < y) (hy' : y ≤ 100) :
    ∃ c1 c2, dimmerSend x (.brightness y none) = .ok c1 ∧ dimmerSend x (.switch true (some t)) = .ok c2 ∧
      dimmerBrightnessOf (dimmerObey d c1) = .ok (.int y) ∧
      dimmerBrightnessOf (dimmerObey (dimmerObey d c1) c2) = .ok (.int x) := by
  have hok : ∀ (b u : Int), 0 ≤ b → b ≤ 100 → 0 ≤ u →
      dimmerTransition (.int b) (.int u) = .ok ⟨"smartlife.iot.dimmer", "set_dimmer_transition",
        [("brightness", .num (.int b)), ("duration", .num (if u = 0 then .int 1 else .int u))]⟩ := by
    intro b u hb0 hb1 hu
    have hc : checkInt (.int b) 0 100 = .ok () :=
      (checkInt_ok_iff _ _ _).2 ⟨rfl, b, rfl, by exact_mod_cast hb0, by exact_mod_cast hb1⟩
    unfold dimmerTransition
    have hz : (Num.int u).eq 0 = decide (u = 0) := isZero_int u
    rw [hc, hz]
    by_cases hu0 : u = 0
    · subst hu0
      have hg : (Num.int 1).gt 0 = .ok true := by decide +kernel
      simp only [decide_true, if_true, Num.isInt, Bool.not_true, Bool.false_eq_true, if_false, hg, bind, Except.bind]
      rfl
    · have hg : (Num.int u).gt 0 = .ok true := by
        have : (0 : Rat) < (u : Rat) := by
          have : 0 < u := by omega
          exact_mod_cast this
        simp [Num.gt, this]
      simp only [hu0, decide_false, Bool.false_eq_true, if_false, Num.isInt, Bool.not_true, hg, bind, Except.bind]
      rfl
  have hy0 : y ≠ 0 := by omega
  have hx0 : x ≠ 0 := by omega
  have hs1 : dimmerSend x (.brightness y none) = dimmerTransition (.int y) (.int 0) := by
    show dimmerState x { brightness := some (.int y), transition := none } = _
    unfold dimmerState
    have hz : isZero (some (Num.int y)) = false := by rw [isZero_int]; simp [hy0]
    have ht : (Num.int y).truthy = true := by simp [Num.truthy, hy0]
    simp only [hz, Bool.false_eq_true, ht, if_true, reduceCtorEq, or_self, if_false]
  have hs2 : dimmerSend x (.switch true (some t)) = dimmerTransition (.int x) (.int t) := rfl
  refine ⟨_, _, hs1.trans (hok y 0 (by omega) hy' (by omega)), hs2.trans (hok x t (by omega) hx (by omega)), ?_, ?_⟩
  · rw [obey_transition, if_neg hy0]
    unfold dimmerBrightnessOf
    rw [Dict.get?_set_self]
    rfl
  · rw [obey_transition, if_neg hx0]
    unfold dimmerBrightnessOf
    rw [Dict.get?_set_self]
    rfl

/-! ## Examples -/

/-- A colour bulb that is off, and what the app shows after some operations, one of which is refused. -/
def bulb1 : Bulb := ⟨"smartlife.iot.smartbulb.lightingservice", "transition_light_state", true, true, true, "KL130(EU)"⟩

def lamp1 : Lamp := ⟨false, 30, 10, 20, 2700⟩

def store1 : Info := [("on_off", .num (.int 0)), ("brightness", .num (.int 30)), ("hue", .num (.int 10)),
  ("saturation", .num (.int 20)), ("color_temp", .num (.int 2700))]

example : BulbHolds store1 lamp1 := ⟨rfl, rfl, rfl, rfl, rfl⟩

/-- Switch on, a colour, a brightness out of range, brightness 0: off, with the colour and the brightness kept. -/
def ops1 : List Op := [.switch true none, .hsv 120 100 (some 55) (some 500), .brightness 101 none, .brightness 0 none]

example : lampAfter (bulbSend bulb1) Lamp.bulb lamp1 ops1 = ⟨false, 55, 120, 100, 0⟩ := by decide +kernel

example : bulbIsOn (bulbReport (after (bulbSend bulb1) (bulbObey bulb1) store1 ops1)) = .ok false := by
  rw [(C66_bulb_history bulb1 store1 lamp1 ops1 ⟨rfl, rfl, rfl, rfl, rfl⟩ (fun _ => rfl)).2.1]
  exact congrArg Except.ok (by decide +kernel)

/-- A newer bulb: setting the brightness while it is off does not switch it on. -/
def light1 : Light := ⟨true, true, some (2500, 6500), none⟩

def info1 : Info := [("device_on", .num (.bool false)), ("brightness", .num (.int 30)), ("hue", .num (.int 10)),
  ("saturation", .num (.int 20)), ("color_temp", .num (.int 2700)), ("nickname", .str "TGFtcA==")]

example : SmartHolds info1 lamp1 := ⟨rfl, rfl, rfl, rfl, rfl⟩

example : lampAfter (smartSend light1) Lamp.smart lamp1 [.brightness 60 none, .colorTemp 9000 none none,
    .colorTemp 3000 (some 0) none] = ⟨false, 60, 10, 20, 3000⟩ := by decide +kernel

/-- A dimmer. -/
def sys1 : Info := [("relay_state", .num (.int 1)), ("brightness", .num (.int 30)), ("alias", .str "Hall")]

example : DimmerHolds sys1 ⟨true, 30, 0, 0, 0⟩ := ⟨rfl, rfl⟩

example : dimmerLampAfter ⟨true, 30, 0, 0, 0⟩ [.brightness 70 (some 300), .brightness 0 none, .switch true (some 100)] =
    ⟨true, 70, 0, 0, 0⟩ := by decide +kernel

end Kasa.LightReading
