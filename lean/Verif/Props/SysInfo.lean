import Verif.Model.SysInfo
import Verif.Spec.SysInfo
/-!
# C24: the kind of a legacy device
-/

namespace Kasa.SysInfo

open Ops SysInfoSpec

/-- `DeviceType.value` (device_type.py:12-27). -/
def IotClass.name : IotClass → String
  | .bulb => "bulb"
  | .plug => "plug"
  | .dimmer => "dimmer"
  | .strip => "strip"
  | .wallSwitch => "wallswitch"
  | .lightStrip => "lightstrip"

theorem isInfix_iff (x : List Char) : ∀ (w : List Char), isInfix x w = true ↔ ∃ a b, w = a ++ x ++ b
  | [] => by
    unfold isInfix
    constructor
    · intro h
      exact ⟨[], [], by simpa using h⟩
    · rintro ⟨a, b, h⟩
      have := congrArg List.length h
      simp at this
      have hx : x.length = 0 := by omega
      rw [List.length_eq_zero_iff.mp hx]
      rfl
  | c :: cs => by
    unfold isInfix
    rw [Bool.or_eq_true, isInfix_iff x cs, List.isPrefixOf_iff_prefix]
    constructor
    · rintro (⟨b, h⟩ | ⟨a, b, h⟩)
      · exact ⟨[], b, by simp [h]⟩
      · exact ⟨c :: a, b, by simp [h]⟩
    · rintro ⟨a, b, h⟩
      cases a with
      | nil => exact Or.inl ⟨b, by simpa using h.symm⟩
      | cons d a =>
        simp only [List.cons_append, List.cons.injEq] at h
        exact Or.inr ⟨a, b, by simpa using h.2⟩

theorem hasText_iff (part whole : String) : hasText part whole = true ↔ Contains whole part := by
  unfold hasText Contains
  exact isInfix_iff _ _

/-- A flat legacy answer: the record under `system.get_sysinfo`, without a nested `system`. -/
def answer (sys : List (String × Json)) : Json := .obj [("system", .obj [("get_sysinfo", .obj sys)])]

/-- The facts `r` describe the record `sys`. -/
structure Describes (sys : List (String × Json)) (r : Record) : Prop where
  flat : Dict.get? sys "system" = none
  type : Dict.get? sys "type" = some (.str r.type) ∨
    Dict.get? sys "type" = none ∧ Dict.get? sys "mic_type" = some (.str r.type)
  name : Dict.get? sys "dev_name" = r.name.map .str
  children : Dict.has sys "children" = r.children
  length : Dict.has sys "length" = r.length

theorem extract_answer {sys : List (String × Json)} (hf : Dict.get? sys "system" = none) :
    extract (answer sys) = .ok (.obj sys) := by
  unfold extract answer
  simp only [getOr, Dict.get?, bind, Except.bind, pure, Except.pure, if_true, Option.getD_some, hf, Option.getD_none, len,
    List.length_nil]
  simp

theorem deviceType_answer (lower : String → String) {sys : List (String × Json)}
    (hf : Dict.get? sys "system" = none) : deviceType lower (answer sys) = kindOfInfo lower (answer sys) := by
  have hc : Dict.has sys "system" = false := by unfold Dict.has; rw [hf]; rfl
  unfold deviceType
  have h1 : getOr (answer sys) "system" (.obj []) = .ok (.obj [("get_sysinfo", .obj sys)]) := rfl
  have h2 : getOr (.obj [("get_sysinfo", .obj sys)]) "get_sysinfo" (.obj []) = .ok (.obj sys) := rfl
  have h3 : contains (.obj sys) "system" = .ok false := by show Except.ok (Dict.has sys "system") = _; rw [hc]
  have h4 : hasSysInfo (answer sys) = .ok true := rfl
  simp only [h1, h2, h3, h4, bind, Except.bind]
  rfl

theorem typeOf_described {sys : List (String × Json)} {r : Record} (hd : Describes sys r) :
    typeOf (.obj sys) = .ok (.str r.type) := by
  unfold typeOf getOpt getOr
  simp only [bind, Except.bind]
  rcases hd.type with h | ⟨h1, h2⟩
  · rw [h]; rfl
  · rw [h1, h2]; rfl

theorem isDimmer_described {sys : List (String × Json)} {r : Record} (hd : Describes sys r) :
    isDimmer (.obj sys) = .ok (match r.name with | some n => hasText "Dimmer" n | none => false) := by
  unfold isDimmer
  simp only [contains, item, bind, Except.bind, Dict.has, hd.name]
  cases r.name with
  | none => rfl
  | some n => rfl

theorem isLightSwitch_described (lower : String → String) {sys : List (String × Json)} {r : Record}
    (hd : Describes sys r) :
    isLightSwitch lower (.obj sys) =
      .ok (match r.name with | some n => (n != "") && hasText "light" (lower n) | none => false) := by
  unfold isLightSwitch
  simp only [getOpt, bind, Except.bind, hd.name]
  cases r.name with
  | none => rfl
  | some n =>
    show (if (n != "") = true then Except.ok (hasText "light" (lower n)) else Except.ok false) = _
    by_cases hn : (n != "") = true
    · rw [if_pos hn]
      show _ = Except.ok ((n != "") && hasText "light" (lower n))
      rw [hn]; rfl
    · rw [if_neg hn]
      show _ = Except.ok ((n != "") && hasText "light" (lower n))
      have hf : (n != "") = false := by simpa using hn
      rw [hf]; rfl

/-- C24: for every flat record with a textual type (and name, if any), the library picks exactly the documented
class. -/
theorem C24_kind_partial (lower : String → String) (sys : List (String × Json)) (r : Record) (hd : Describes sys r) :
    ∃ c, classOf lower (answer sys) = .ok c ∧ ∀ k, Kind lower r k ↔ k = c.name := by
  have hk : kindOfInfo lower (answer sys) = kindOf lower (.obj sys) (.str r.type) := by
    unfold kindOfInfo
    simp only [extract_answer hd.flat, typeOf_described hd, bind, Except.bind]
    rw [if_neg (by simp)]
  unfold classOf
  rw [deviceType_answer lower hd.flat, hk]
  unfold kindOf
  simp only [isDimmer_described hd, lowerHas, bind, Except.bind, plugKind, bulbKind,
    isLightSwitch_described lower hd, contains, hd.children, hd.length]
  have noDim : (match r.name with | some n => hasText "Dimmer" n | none => false) = false ↔
      ∀ n, r.name = some n → ¬ Contains n "Dimmer" := by
    cases hn : r.name with
    | none => simp
    | some n =>
      simp only [← hasText_iff]
      simp
  have noLight : (match r.name with | some n => (n != "") && hasText "light" (lower n) | none => false) = false ↔
      ∀ n, r.name = some n → n ≠ "" → ¬ Contains (lower n) "light" := by
    cases hn : r.name with
    | none => simp
    | some n =>
      simp only [← hasText_iff]
      simp
  cases hD : (match r.name with | some n => hasText "Dimmer" n | none => false) with
  | true =>
    have hx : ∃ n, r.name = some n ∧ Contains n "Dimmer" := by
      cases hn : r.name with
      | none => rw [hn] at hD; cases hD
      | some n => rw [hn] at hD; exact ⟨n, rfl, (hasText_iff _ _).mp hD⟩
    obtain ⟨n, hn, hc⟩ := hx
    refine ⟨.dimmer, rfl, fun k => ⟨fun hk => ?_, fun hk => by rw [hk]; exact .dimmer n hn hc⟩⟩
    cases hk with
    | dimmer => rfl
    | wallSwitch m hm hnc => rw [hn] at hm; cases hm; exact absurd hc hnc
    | strip h => exact absurd hc (h n hn)
    | plug h => exact absurd hc (h n hn)
    | lightStrip h => exact absurd hc (h n hn)
    | bulb h => exact absurd hc (h n hn)
    | other h => exact absurd hc (h n hn)
  | false =>
    have hnd := noDim.mp hD
    simp only [Bool.false_eq_true, if_false]
    cases hP : hasText "smartplug" (lower r.type) with
    | true =>
      have hp := (hasText_iff _ _).mp hP
      simp only [if_true]
      cases hC : r.children with
      | true =>
        refine ⟨.strip, rfl, fun k => ⟨fun hk => ?_, fun hk => by rw [hk]; exact .strip hnd hp hC⟩⟩
        cases hk with
        | dimmer n hn hc => exact absurd hc (hnd n hn)
        | strip => rfl
        | wallSwitch _ _ _ _ h => rw [hC] at h; cases h
        | plug _ _ h => rw [hC] at h; cases h
        | lightStrip _ h => exact absurd hp h
        | bulb _ h => exact absurd hp h
        | other _ h => exact absurd hp h
      | false =>
        simp only [Bool.false_eq_true, if_false]
        cases hL : (match r.name with | some n => (n != "") && hasText "light" (lower n) | none => false) with
        | true =>
          have hx : ∃ n, r.name = some n ∧ n ≠ "" ∧ Contains (lower n) "light" := by
            cases hn : r.name with
            | none => rw [hn] at hL; cases hL
            | some n =>
              rw [hn] at hL
              simp only [Bool.and_eq_true, bne_iff_ne] at hL
              exact ⟨n, rfl, hL.1, (hasText_iff _ _).mp hL.2⟩
          obtain ⟨n, hn, hne, hl⟩ := hx
          refine ⟨.wallSwitch, rfl, fun k => ⟨fun hk => ?_, fun hk => by
            rw [hk]; exact .wallSwitch n hn (hnd n hn) hp hC hne hl⟩⟩
          cases hk with
          | dimmer n hn hc => exact absurd hc (hnd n hn)
          | strip _ _ h => rw [hC] at h; cases h
          | wallSwitch => rfl
          | plug _ _ _ h => exact absurd hl (h n hn hne)
          | lightStrip _ h => exact absurd hp h
          | bulb _ h => exact absurd hp h
          | other _ h => exact absurd hp h
        | false =>
          have hnl := noLight.mp hL
          refine ⟨.plug, rfl, fun k => ⟨fun hk => ?_, fun hk => by rw [hk]; exact .plug hnd hp hC hnl⟩⟩
          cases hk with
          | dimmer n hn hc => exact absurd hc (hnd n hn)
          | strip _ _ h => rw [hC] at h; cases h
          | wallSwitch n hn _ _ _ hne hl => exact absurd hl (hnl n hn hne)
          | plug => rfl
          | lightStrip _ h => exact absurd hp h
          | bulb _ h => exact absurd hp h
          | other => rfl
    | false =>
      have hp : ¬ Contains (lower r.type) "smartplug" := by rw [← hasText_iff]; simp [hP]
      simp only [Bool.false_eq_true, if_false]
      cases hB : hasText "smartbulb" (lower r.type) with
      | true =>
        have hb := (hasText_iff _ _).mp hB
        simp only [if_true]
        cases hL : r.length with
        | true =>
          refine ⟨.lightStrip, rfl, fun k => ⟨fun hk => ?_, fun hk => by rw [hk]; exact .lightStrip hnd hp hb hL⟩⟩
          cases hk with
          | dimmer n hn hc => exact absurd hc (hnd n hn)
          | strip _ h => exact absurd h hp
          | wallSwitch _ _ _ h => exact absurd h hp
          | plug _ h => exact absurd h hp
          | lightStrip => rfl
          | bulb _ _ _ h => rw [hL] at h; cases h
          | other _ _ h => exact absurd hb h
        | false =>
          refine ⟨.bulb, rfl, fun k => ⟨fun hk => ?_, fun hk => by rw [hk]; exact .bulb hnd hp hb hL⟩⟩
          cases hk with
          | dimmer n hn hc => exact absurd hc (hnd n hn)
          | strip _ h => exact absurd h hp
          | wallSwitch _ _ _ h => exact absurd h hp
          | plug _ h => exact absurd h hp
          | lightStrip _ _ _ h => rw [hL] at h; cases h
          | bulb => rfl
          | other _ _ h => exact absurd hb h
      | false =>
        have hb : ¬ Contains (lower r.type) "smartbulb" := by rw [← hasText_iff]; simp [hB]
        refine ⟨.plug, rfl, fun k => ⟨fun hk => ?_, fun hk => by rw [hk]; exact .other hnd hp hb⟩⟩
        cases hk with
        | dimmer n hn hc => exact absurd hc (hnd n hn)
        | strip _ h => exact absurd h hp
        | wallSwitch _ _ _ h => exact absurd h hp
        | plug => rfl
        | lightStrip _ _ h => exact absurd h hb
        | bulb _ _ h => exact absurd h hb
        | other => rfl

/-- C24: a flat record without a type (missing or null) is refused with `KasaException`. -/
theorem C24_no_type (lower : String → String) (sys : List (String × Json)) (hf : Dict.get? sys "system" = none)
    (h1 : Dict.get? sys "type" = none ∧ (Dict.get? sys "mic_type" = none ∨ Dict.get? sys "mic_type" = some .null) ∨
      Dict.get? sys "type" = some .null) :
    classOf lower (answer sys) = .error .kasa := by
  unfold classOf
  rw [deviceType_answer lower hf]
  unfold kindOfInfo
  have ht : typeOf (.obj sys) = .ok .null := by
    unfold typeOf getOpt getOr
    simp only [bind, Except.bind]
    rcases h1 with ⟨h, h2 | h2⟩ | h
    · rw [h, h2]; rfl
    · rw [h, h2]; rfl
    · rw [h]; rfl
  simp only [extract_answer hf, ht, bind, Except.bind]
  rfl

/-- C24: an answer without `system` or without `get_sysinfo` is refused with `KasaException`. -/
theorem C24_no_sysinfo (lower : String → String) (info sys : List (String × Json)) :
    (Dict.get? info "system" = none → classOf lower (.obj info) = .error .kasa) ∧
    (Dict.get? info "system" = some (.obj sys) → Dict.get? sys "get_sysinfo" = none →
      classOf lower (.obj info) = .error .kasa) := by
  constructor
  · intro h
    unfold classOf deviceType
    simp only [getOr, h, bind, Except.bind, Option.getD_none, Dict.get?, contains, Dict.has]
    simp [hasSysInfo, contains, Dict.has, h, bind, Except.bind, pure, Except.pure]
  · intro h h2
    unfold classOf deviceType
    simp only [getOr, h, h2, bind, Except.bind, Option.getD_none, Option.getD_some, contains, Dict.has, Dict.get?]
    simp [hasSysInfo, contains, item, Dict.has, h, h2, bind, Except.bind]

/-- C24 does not hold of cameras: a record with a nested `system` is of a kind the library knows but has no class for, and
is refused with `KeyError`, which is no `KasaException`. -/
theorem C24_camera (lower : String → String) (sys inner : List (String × Json))
    (hs : Dict.get? sys "system" = some (.obj inner)) :
    classOf lower (answer sys) = .error (.other "KeyError") := by
  have hc : Dict.has sys "system" = true := by unfold Dict.has; rw [hs]; rfl
  unfold classOf deviceType
  have h1 : getOr (answer sys) "system" (.obj []) = .ok (.obj [("get_sysinfo", .obj sys)]) := rfl
  have h2 : getOr (.obj [("get_sysinfo", .obj sys)]) "get_sysinfo" (.obj []) = .ok (.obj sys) := rfl
  have h3 : contains (.obj sys) "system" = .ok true := by show Except.ok (Dict.has sys "system") = _; rw [hc]
  simp only [h1, h2, h3, bind, Except.bind]
  rfl

/-- C24: the record of a camera is the one nested in its answer, when that says more than what is around it; otherwise, and
without a nested record, it is the answer itself. -/
theorem C24_nested (sys inner : List (String × Json)) :
    (Dict.get? sys "system" = some (.obj inner) → sys.length < inner.length → extract (answer sys) = .ok (.obj inner)) ∧
    (Dict.get? sys "system" = some (.obj inner) → inner.length ≤ sys.length → extract (answer sys) = .ok (.obj sys)) ∧
    (Dict.get? sys "system" = none → extract (answer sys) = .ok (.obj sys)) := by
  have h1 : getOr (answer sys) "system" (.obj []) = .ok (.obj [("get_sysinfo", .obj sys)]) := rfl
  have h2 : getOr (.obj [("get_sysinfo", .obj sys)]) "get_sysinfo" (.obj []) = .ok (.obj sys) := rfl
  refine ⟨fun h hl => ?_, fun h hl => ?_, fun h => ?_⟩
  · have h3 : getOr (.obj sys) "system" (.obj []) = .ok (.obj inner) := by simp [getOr, h]
    simp [extract, h1, h2, h3, bind, Except.bind, pure, Except.pure, len, isDict, hl]
  · have h3 : getOr (.obj sys) "system" (.obj []) = .ok (.obj inner) := by simp [getOr, h]
    simp [extract, h1, h2, h3, bind, Except.bind, pure, Except.pure, len, isDict, Nat.not_lt.mpr hl]
  · have h3 : getOr (.obj sys) "system" (.obj []) = .ok (.obj []) := by simp [getOr, h]
    simp [extract, h1, h2, h3, bind, Except.bind, pure, Except.pure, len, isDict]

example : extract (answer [("system", .obj [("type", .str "IOT.IPCAMERA"), ("mac", .str "02:00:00:00:00:01")])]) =
    .ok (.obj [("type", .str "IOT.IPCAMERA"), ("mac", .str "02:00:00:00:00:01")]) :=
  (C24_nested _ _).1 rfl (by decide)

/-- Nor of records with a name that is null. -/
theorem C24_null_name (lower : String → String) :
    classOf lower (answer [("type", .str "IOT.SMARTPLUGSWITCH"), ("dev_name", .null)]) = .error (.other "TypeError") :=
  rfl

/-! ## Examples -/

example : Describes [("mic_type", .str "IOT.SMARTBULB"), ("length", .num 16)]
    { type := "IOT.SMARTBULB", name := none, children := false, length := true } where
  flat := rfl
  type := Or.inr ⟨rfl, rfl⟩
  name := rfl
  children := rfl
  length := rfl

example : classOf String.toLower (answer [("type", .str "IOT.SMARTPLUGSWITCH"), ("dev_name", .str "Wi-Fi Light Switch")]) =
    .ok .wallSwitch := by decide +kernel

end Kasa.SysInfo
