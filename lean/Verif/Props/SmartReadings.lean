import Verif.Spec.SmartReadings
import Verif.Props.Names
/-!
# C105: what newer devices show of themselves
-/

namespace Kasa.SmartReadings

open Spec

theorem heard_last (start : Info) (before : List Event) (e : Event) : (before ++ [e]).foldl hear start = told e := by
  rw [List.foldl_append]
  cases e <;> rfl

theorem b64_means (s : String) : NamesSpec.Means (Names.b64 s) s := by
  obtain ⟨t, h1, _, h2, h3⟩ := Names.b64_encodes s
  refine ⟨t, h1, fun c hc => ?_, h3⟩
  have hall : ∀ c ∈ '=' :: B64.alphabet, c.toNat < 128 := by decide +kernel
  exact hall c (by rcases h2 c hc with h | h <;> simp [h])

theorem b64_truthy (s : String) (hs : s ≠ "") : (Names.b64 s).truthy = true := by
  obtain ⟨t, h1, _, h3⟩ := b64_means s
  rw [h1]
  by_cases ht : t = ""
  · exfalso
    subst ht
    have h0 : B64.decode "".toList = some [] := by decide +kernel
    rw [h0] at h3
    cases h3e : utf8 s with
    | cons a l => rw [h3e] at h3; cases h3
    | nil =>
      have := fromUtf8_utf8 s
      rw [h3e, ← (show utf8 "" = [] by rfl), fromUtf8_utf8] at this
      cases this
      exact hs rfl
  · simp [Json.truthy, ht]

theorem alias_told (info : Info) (s : String) (h : Dict.get? info "nickname" = some (Names.b64 s)) :
    Names.alias info = .ok (if s = "" then none else some s) := by
  unfold Names.alias
  rw [h]
  by_cases hs : s = ""
  · subst hs
    rfl
  · have hm : Names.unb64 (Names.b64 s) = .ok s := (Names.unb64_iff _ _).mpr (b64_means s)
    rw [if_neg hs]
    simp only [b64_truthy s hs, if_true, hm]
    rfl

/-- C105: whatever a device object heard before, it shows what the device, its hub or discovery told last: whether it is on, its id, its
place in degrees, its signal and its hardware.  This is partial: a signal of 0 is left out. -/
theorem C105_shown_partial (start : Info) (before : List Event) (e : Event) (t : Told) (h : Reports (told e) t) (hr : t.rssi ≠ 0) :
    let info := (before ++ [e]).foldl hear start
    isOn info = t.on ∧ deviceId info = some t.id ∧ location info = .ok ((t.latitude : Rat) / 10000, (t.longitude : Rat) / 10000) ∧
      rssi info = .ok (some t.rssi) ∧
      hwInfo info = .ok [("sw_ver", .str t.firmware), ("hw_ver", .str t.hardware), ("mac", .str t.mac),
        ("type", .str t.family), ("hwId", .str t.id), ("dev_name", if t.name = "" then .null else .str t.name), ("oemId", .str t.oem)] := by
  simp only [heard_last]
  generalize told e = info at h
  refine ⟨?_, ?_, ?_, ?_, ?_⟩
  · simp only [isOn, get, h.on, Option.getD_some]
    cases t.on <;> rfl
  · simp only [deviceId, get, h.id, Option.getD_some]
  · simp only [location, coordinate, h.latitude, h.longitude, Option.getD_some]
    rfl
  · have ht : (Json.num t.rssi).truthy = true := by simp [Json.truthy, hr]
    simp only [rssi, get, h.rssi, Option.getD_some, ht, if_true]
  · rw [hwInfo, alias_told info t.name h.name]
    simp only [get, h.id, h.firmware, h.hardware, h.mac, h.family, h.oem, Option.getD_some]
    by_cases hn : t.name = ""
    · simp only [hn, if_true]; rfl
    · simp only [hn, if_false]; rfl

/-- C105 is false before anything was heard: the device is shown as switched off, at the equator, with an id and an address. -/
theorem C105_before_counterexample : isOn [] = false ∧ deviceId [] = some "None" ∧ DeviceInfo.smartMac [] = some "None" ∧
    location [] = .ok (0, 0) := by
  refine ⟨rfl, rfl, rfl, ?_⟩
  have : ((0 : Int) : Rat) / 10000 = 0 := by decide +kernel
  show Except.ok (((0 : Int) : Rat) / 10000, ((0 : Int) : Rat) / 10000) = _
  rw [this]

/-- C105 is false of a device that is found again by discovery, which does not tell whether devices are on: a device that is on is shown
as switched off and without a name until its next update. -/
theorem C105_found_again_counterexample (start info found : Info) (before : List Event) (h : Dict.get? info "device_on" = some (.bool true))
    (h1 : Dict.get? found "device_on" = none) (h2 : Dict.get? found "nickname" = none) :
    isOn ((before ++ [Event.updated info]).foldl hear start) = true ∧
      isOn ((before ++ [Event.updated info] ++ [Event.discovered found]).foldl hear start) = false ∧
      Names.alias ((before ++ [Event.updated info] ++ [Event.discovered found]).foldl hear start) = .ok none := by
  rw [heard_last, heard_last]
  refine ⟨?_, ?_, ?_⟩
  · simp only [isOn, get, told, h]
    rfl
  · simp only [isOn, get, told, h1]
    rfl
  · simp only [Names.alias, told, h2]

/-- C105 is false of a signal of 0, which is shown as none. -/
theorem C105_signal_counterexample (info : Info) (h : Dict.get? info "rssi" = some (.num 0)) : rssi info = .ok none := by
  simp only [rssi, get, h]
  rfl

/-! Cases. -/

/-- A plug in the kitchen. -/
def samplePlug : Info :=
  [("device_id", .str "8022"), ("device_on", .bool true), ("latitude", .num 523000), ("longitude", .num (-46000)), ("rssi", .num (-41)),
   ("nickname", Names.b64 "Kitchen"), ("fw_ver", .str "1.0.1"), ("hw_ver", .str "1.0"), ("mac", .str "AA-BB"), ("type", .str "SMART.TAPOPLUG"),
   ("oem_id", .str "D43E")]

example : Reports samplePlug ⟨"8022", true, 523000, -46000, -41, "Kitchen", "1.0.1", "1.0", "AA-BB", "SMART.TAPOPLUG", "D43E"⟩ := by
  constructor <;> rfl
example : isOn ([Event.updated samplePlug].foldl hear []) = true := by decide +kernel

end Kasa.SmartReadings
