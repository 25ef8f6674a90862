import Verif.Model.Factory
import Verif.Spec.Factory
/-!
# C20, C50: the table of supported connections
-/

namespace Kasa.Factory

open Config FactorySpec

/-- `type(protocol).__name__`. -/
def Proto.name : Proto → String
  | .iot => "IotProtocol"
  | .smart => "SmartProtocol"
  | .smartCam => "SmartCamProtocol"

/-- `type(transport).__name__`. -/
def Transport.name : Transport → String
  | .xor => "XorTransport"
  | .klap => "KlapTransport"
  | .klapV2 => "KlapTransportV2"
  | .aes => "AesTransport"
  | .ssl => "SslTransport"
  | .sslAes => "SslAesTransport"
  | .linkie => "LinkieTransportV2"

/-- `type(device).__name__`. -/
def DevClass.name : DevClass → String
  | .iot .bulb => "IotBulb"
  | .iot .plug => "IotPlug"
  | .iot .dimmer => "IotDimmer"
  | .iot .strip => "IotStrip"
  | .iot .wallSwitch => "IotWallSwitch"
  | .iot .lightStrip => "IotLightStrip"
  | .smart => "SmartDevice"
  | .smartCam => "SmartCamDevice"

/-- The part of a configuration that decides. -/
def table (f : Family) (e : Encryption) (h strict : Bool) : Option (Proto × Transport) :=
  getProtocol { ofHost "" with connectionType := { family := f, encryption := e, loginVersion := none, https := h, httpPort := none } }
    strict

theorem getProtocol_eq (c : DeviceConfig) (strict : Bool) :
    getProtocol c strict = table c.connectionType.family c.connectionType.encryption c.connectionType.https strict := rfl

/-- The rows, decided. -/
def rowOf (f e : String) (h : Bool) : Option (String × String) :=
  if f = "IOT.SMARTPLUGSWITCH" ∨ f = "IOT.SMARTBULB" then
    if e = "XOR" ∧ h = false then some ("IotProtocol", "XorTransport")
    else if e = "KLAP" ∧ h = false then some ("IotProtocol", "KlapTransport") else none
  else if f ∈ smartFamilies then
    if e = "KLAP" then some ("SmartProtocol", "KlapTransportV2")
    else if e = "AES" then
      if f = "SMART.TAPOROBOVAC" then some ("SmartProtocol", "SslTransport")
      else if h then some ("SmartCamProtocol", "SslAesTransport") else some ("SmartProtocol", "AesTransport")
    else none
  else if f = "SMART.IPCAMERA" ∨ f = "SMART.TAPODOORBELL" then
    if e = "AES" then some ("SmartCamProtocol", "SslAesTransport") else none
  else if f = "IOT.IPCAMERA" then if e = "XOR" then some ("IotProtocol", "LinkieTransportV2") else none
  else none

theorem rowOf_of_row {f e : String} {h : Bool} {p t : String} (hr : Row f e h p t) : rowOf f e h = some (p, t) := by
  cases hr with
  | legacyPlug => decide
  | legacyBulb => decide
  | legacyPlugKlap => decide
  | legacyBulbKlap => decide
  | smartKlap _ _ hf =>
    have hn : ¬ (f = "IOT.SMARTPLUGSWITCH" ∨ f = "IOT.SMARTBULB") := by
      rintro (rfl | rfl) <;> revert hf <;> decide
    unfold rowOf
    rw [if_neg hn, if_pos hf, if_pos rfl]
  | smartAes _ hf hv =>
    have hn : ¬ (f = "IOT.SMARTPLUGSWITCH" ∨ f = "IOT.SMARTBULB") := by
      rintro (rfl | rfl) <;> revert hf <;> decide
    unfold rowOf
    rw [if_neg hn, if_pos hf, if_neg (by decide), if_pos rfl, if_neg hv]
    rfl
  | smartAesHttps _ hf hv =>
    have hn : ¬ (f = "IOT.SMARTPLUGSWITCH" ∨ f = "IOT.SMARTBULB") := by
      rintro (rfl | rfl) <;> revert hf <;> decide
    unfold rowOf
    rw [if_neg hn, if_pos hf, if_neg (by decide), if_pos rfl, if_neg hv]
    rfl
  | vacuum => cases h <;> decide
  | camera => cases h <;> decide
  | doorbell => cases h <;> decide
  | legacyCamera => cases h <;> decide

theorem row_of_rowOf {f e : String} {h : Bool} {p t : String} (hr : rowOf f e h = some (p, t)) : Row f e h p t := by
  unfold rowOf at hr
  split at hr
  · rename_i hf
    split at hr
    · rename_i he
      obtain ⟨rfl, rfl⟩ := he
      cases hr
      rcases hf with rfl | rfl
      · exact .legacyPlug
      · exact .legacyBulb
    · split at hr
      · rename_i he
        obtain ⟨rfl, rfl⟩ := he
        cases hr
        rcases hf with rfl | rfl
        · exact .legacyPlugKlap
        · exact .legacyBulbKlap
      · cases hr
  · split at hr
    · rename_i hf
      split at hr
      · rename_i he; subst he; cases hr; exact .smartKlap _ _ hf
      · split at hr
        · rename_i he
          subst he
          split at hr
          · rename_i hv; subst hv; cases hr; exact .vacuum _
          · rename_i hv
            split at hr
            · rename_i hh; rw [hh]; cases hr; exact .smartAesHttps _ hf hv
            · rename_i hh
              have : h = false := by simpa using hh
              rw [this]; cases hr; exact .smartAes _ hf hv
        · cases hr
    · split at hr
      · rename_i hf
        split at hr
        · rename_i he
          subst he
          cases hr
          rcases hf with rfl | rfl
          · exact .camera _
          · exact .doorbell _
        · cases hr
      · split at hr
        · rename_i hf
          subst hf
          split at hr
          · rename_i he; subst he; cases hr; exact .legacyCamera _
          · cases hr
        · cases hr

/-- C20: in strict mode, the accepted combinations are exactly the rows of the table. -/
theorem C20_strict (c : DeviceConfig) (p : Proto) (t : Transport) :
    getProtocol c true = some (p, t) ↔
      Row c.connectionType.family.value c.connectionType.encryption.value c.connectionType.https p.name t.name := by
  rw [getProtocol_eq]
  generalize c.connectionType.family = f
  generalize c.connectionType.encryption = e
  generalize c.connectionType.https = h
  have key : rowOf f.value e.value h = (table f e h true).map (fun x => (x.1.name, x.2.name)) := by
    cases f <;> cases e <;> cases h <;> decide +kernel
  constructor
  · intro hg
    apply row_of_rowOf
    rw [key, hg]
    rfl
  · intro hr
    have h1 := rowOf_of_row hr
    rw [key] at h1
    cases hg : table f e h true with
    | none => rw [hg] at h1; cases h1
    | some x =>
      rw [hg] at h1
      obtain ⟨p', t'⟩ := x
      simp only [Option.map_some, Option.some.injEq, Prod.mk.injEq] at h1
      have hp : p' = p := by
        have := h1.1
        cases p' <;> cases p <;> first | rfl | (exfalso; revert this; decide)
      have ht : t' = t := by
        have := h1.2
        cases t' <;> cases t <;> first | rfl | (exfalso; revert this; decide)
      rw [hp, ht]

/-- C20: in the default mode, cameras and doorbells are accepted as well, whatever encryption they announce. -/
theorem C20_lenient (c : DeviceConfig) (p : Proto) (t : Transport) :
    getProtocol c false = some (p, t) ↔
      Lenient c.connectionType.family.value c.connectionType.encryption.value c.connectionType.https p.name t.name := by
  have key : ∀ f e h, f ≠ .smartIpCamera → f ≠ .smartTapoDoorbell → f ≠ .iotIpCamera →
      table f e h false = table f e h true := by
    intro f e h h1 h2 h3
    cases f <;> first | exact absurd rfl h1 | exact absurd rfl h2 | exact absurd rfl h3 | (cases e <;> cases h <;> decide +kernel)
  have val : ∀ f : Family, (f.value = "SMART.IPCAMERA" → f = .smartIpCamera) ∧
      (f.value = "SMART.TAPODOORBELL" → f = .smartTapoDoorbell) ∧ (f.value = "IOT.IPCAMERA" → f = .iotIpCamera) := by
    intro f; cases f <;> decide
  have hpn : ∀ {p q : Proto}, p.name = q.name → p = q := by
    intro p q; cases p <;> cases q <;> decide
  have htn : ∀ {p q : Transport}, p.name = q.name → p = q := by
    intro p q; cases p <;> cases q <;> decide
  have strict := C20_strict c p t
  rw [getProtocol_eq] at strict ⊢
  generalize c.connectionType.family = f at strict ⊢
  generalize c.connectionType.encryption = e at strict ⊢
  generalize c.connectionType.https = h at strict ⊢
  constructor
  · intro hg
    by_cases h1 : f = .smartIpCamera
    · subst h1
      have : table .smartIpCamera e h false = some (.smartCam, .sslAes) := rfl
      rw [this] at hg; cases hg; exact .camera _ _
    · by_cases h2 : f = .smartTapoDoorbell
      · subst h2
        have : table .smartTapoDoorbell e h false = some (.smartCam, .sslAes) := rfl
        rw [this] at hg; cases hg; exact .doorbell _ _
      · by_cases h3 : f = .iotIpCamera
        · subst h3
          have : table .iotIpCamera e h false = some (.iot, .linkie) := rfl
          rw [this] at hg; cases hg; exact .legacyCamera _ _
        · rw [key f e h h1 h2 h3] at hg
          exact .row _ _ _ _ _ (strict.mp hg)
  · intro hl
    generalize hfv : f.value = fv at hl
    generalize hev : e.value = ev at hl
    generalize hpv : p.name = pv at hl
    generalize htv : t.name = tv at hl
    cases hl with
    | row _ _ _ _ _ hr =>
      rw [← hfv, ← hev, ← hpv, ← htv] at hr
      have hs := strict.mpr hr
      have : ∀ f e h x, table f e h true = some x → table f e h false = some x := by
        intro f e h x; cases f <;> cases e <;> cases h <;> first | exact id | (intro hx; cases hx)
      exact this f e h _ hs
    | camera =>
      rw [(val f).1 hfv, hpn (p := p) (q := .smartCam) hpv, htn (p := t) (q := .sslAes) htv]; rfl
    | doorbell =>
      rw [(val f).2.1 hfv, hpn (p := p) (q := .smartCam) hpv, htn (p := t) (q := .sslAes) htv]; rfl
    | legacyCamera =>
      rw [(val f).2.2 hfv, hpn (p := p) (q := .iot) hpv, htn (p := t) (q := .linkie) htv]; rfl

/-- C20: nothing else in the configuration matters. -/
theorem C20_function (c d : DeviceConfig) (strict : Bool)
    (hf : c.connectionType.family = d.connectionType.family) (he : c.connectionType.encryption = d.connectionType.encryption)
    (hh : c.connectionType.https = d.connectionType.https) : getProtocol c strict = getProtocol d strict := by
  rw [getProtocol_eq, getProtocol_eq, hf, he, hh]

/-- C20: what strict mode accepts, the default mode accepts too, with the same protocol and transport. -/
theorem C20_superset (c : DeviceConfig) (p : Proto) (t : Transport) (h : getProtocol c true = some (p, t)) :
    getProtocol c false = some (p, t) :=
  (C20_lenient c p t).mpr (.row _ _ _ _ _ ((C20_strict c p t).mp h))

/-- The combinations for which class and protocol do not fit together. -/
def mismatched (f : Family) (e : Encryption) (https : Bool) : Bool :=
  match f, e, https with
  | .smartIpCamera, _, false => true
  | .smartTapoDoorbell, _, false => true
  | .smartTapoHub, .klap, true => true
  | .smartTapoHub, _, _ => false
  | .smartTapoRobovac, _, _ => false
  | .smartKasaPlug, .aes, true => true
  | .smartKasaSwitch, .aes, true => true
  | .smartTapoPlug, .aes, true => true
  | .smartTapoBulb, .aes, true => true
  | .smartTapoSwitch, .aes, true => true
  | .smartKasaHub, .aes, true => true
  | .smartTapoChime, .aes, true => true
  | _, _, _ => false

/-- C50: the families with a class of their own, whatever text the device announces as its family; an unknown family of the
newer protocol is a plain newer device, and any other is refused. -/
theorem C50_class (family : String) (https : Bool) (k : DevClass) (hf : ¬ ".HTTPS".toList <:+ family.toList) :
    (classFromFamily family https true = some k ↔ Class family https k.name) ∧
    (classFromFamily family https false = some k ↔ Class family https k.name ∨
      ((∀ n, ¬ Class family https n) ∧ "SMART.".toList <+: family.toList ∧ k = .smart)) := by
  have hget : ∀ k, Dict.get? supportedTypes (family ++ (if https then ".HTTPS" else "")) = some k ↔
      Class family https k.name := by
    intro k
    rw [Dict.get?_eq_some_iff (show (Dict.keys supportedTypes).Nodup by decide +kernel)]
    cases https with
    | false =>
      simp only [Bool.false_eq_true, if_false, String.append_empty]
      constructor
      · intro h
        simp only [supportedTypes, List.mem_cons, Prod.mk.injEq, List.not_mem_nil, or_false] at h
        rcases h with ⟨rfl, rfl⟩ | ⟨rfl, rfl⟩ | ⟨rfl, rfl⟩ | ⟨rfl, rfl⟩ | ⟨rfl, rfl⟩ | ⟨rfl, rfl⟩ | ⟨rfl, rfl⟩ | ⟨rfl, rfl⟩ |
          ⟨rfl, rfl⟩ | ⟨rfl, rfl⟩ | ⟨rfl, rfl⟩ | ⟨rfl, rfl⟩ | ⟨rfl, rfl⟩
        all_goals first
          | exact .smart _ (by decide)
          | exact .plug
          | exact .bulb
          | exact absurd (by decide +kernel) hf
      · intro h
        generalize hn : k.name = n at h
        generalize hb : false = b at h
        cases h with
        | smart _ hm =>
          have hk : k = .smart := by revert hn; cases k with | iot c => cases c <;> decide | smart => simp | smartCam => decide
          subst hk
          simp only [List.mem_cons, List.not_mem_nil, or_false] at hm
          rcases hm with rfl | rfl | rfl | rfl | rfl | rfl | rfl <;> decide +kernel
        | cam _ _ => cases hb
        | vacuum => cases hb
        | plug =>
          have hk : k = .iot .plug := by
            revert hn; cases k with | iot c => cases c <;> decide | smart => decide | smartCam => decide
          subst hk; decide +kernel
        | bulb =>
          have hk : k = .iot .bulb := by
            revert hn; cases k with | iot c => cases c <;> decide | smart => decide | smartCam => decide
          subst hk; decide +kernel
    | true =>
      have hsuf : ∀ a, family ++ ".HTTPS" = a → ".HTTPS".toList <:+ a.toList := by
        rintro a rfl
        rw [String.toList_append]
        exact List.suffix_append _ _
      have hcut : ∀ a, family ++ ".HTTPS" = a ++ ".HTTPS" → family = a := by
        intro a h
        have := congrArg String.toList h
        rw [String.toList_append, String.toList_append] at this
        exact String.toList_inj.mp (List.append_cancel_right this)
      simp only [if_true]
      constructor
      · intro h
        simp only [supportedTypes, List.mem_cons, Prod.mk.injEq, List.not_mem_nil, or_false] at h
        rcases h with ⟨h, rfl⟩ | ⟨h, rfl⟩ | ⟨h, rfl⟩ | ⟨h, rfl⟩ | ⟨h, rfl⟩ | ⟨h, rfl⟩ | ⟨h, rfl⟩ | ⟨h, rfl⟩ |
          ⟨h, rfl⟩ | ⟨h, rfl⟩ | ⟨h, rfl⟩ | ⟨h, rfl⟩ | ⟨h, rfl⟩
        all_goals first
          | exact absurd (hsuf _ h) (by decide +kernel)
          | (have hx := hcut "SMART.TAPOHUB" (h.trans (by decide +kernel)); subst hx; exact .cam _ (by decide))
          | (have hx := hcut "SMART.IPCAMERA" (h.trans (by decide +kernel)); subst hx; exact .cam _ (by decide))
          | (have hx := hcut "SMART.TAPODOORBELL" (h.trans (by decide +kernel)); subst hx; exact .cam _ (by decide))
          | (have hx := hcut "SMART.TAPOROBOVAC" (h.trans (by decide +kernel)); subst hx; exact .vacuum)
      · intro h
        generalize hn : k.name = n at h
        generalize hb : true = b at h
        cases h with
        | smart _ _ => cases hb
        | cam _ hm =>
          have hk : k = .smartCam := by revert hn; cases k with | iot c => cases c <;> decide | smart => decide | smartCam => simp
          subst hk
          simp only [List.mem_cons, List.not_mem_nil, or_false] at hm
          rcases hm with rfl | rfl | rfl <;> decide +kernel
        | vacuum =>
          have hk : k = .smart := by revert hn; cases k with | iot c => cases c <;> decide | smart => simp | smartCam => decide
          subst hk; decide +kernel
        | plug => cases hb
        | bulb => cases hb
  unfold classFromFamily
  cases hg : Dict.get? supportedTypes (family ++ (if https then ".HTTPS" else "")) with
  | some c =>
    have hc := (hget c).mp hg
    refine ⟨?_, ?_⟩
    · rw [← hget k, hg]
    · simp only
      rw [← hget k, hg]
      constructor
      · exact Or.inl
      · rintro (h | ⟨h, -⟩)
        · exact h
        · exact absurd hc (h _)
  | none =>
    have hno : ∀ k : DevClass, ¬ Class family https k.name := fun k h => by rw [← hget k, hg] at h; cases h
    have hno' : ∀ n, ¬ Class family https n := by
      intro n h
      have h' := h
      cases h with
      | smart _ _ => exact hno .smart h'
      | cam _ _ => exact hno .smartCam h'
      | vacuum => exact hno .smart h'
      | plug => exact hno (.iot .plug) h'
      | bulb => exact hno (.iot .bulb) h'
    refine ⟨?_, ?_⟩
    · simp [hno k]
    · simp only [hno k, false_or, hno', not_false_eq_true, implies_true, true_and, Bool.false_eq_true, and_true]
      by_cases hp : "SMART.".toList.isPrefixOf family.toList = true
      · rw [if_pos hp]
        simp only [List.isPrefixOf_iff_prefix.mp hp, true_and, Option.some.injEq]
        exact eq_comm
      · rw [if_neg hp]
        simp only [reduceCtorEq, false_iff, not_and]
        intro h
        exact absurd (List.isPrefixOf_iff_prefix.mpr h) hp

example : Class "SMART.TAPOHUB" true "SmartCamDevice" := .cam _ (by decide)

example : classFromFamily "SMART.TAPONEW" false false = some .smart ∧ ¬ ".HTTPS".toList <:+ "SMART.TAPONEW".toList := by
  decide +kernel

/-- C50: outside of the listed combinations, a device built for a connection type speaks the protocol its class needs. -/
theorem C50_class_protocol_partial (c : DeviceConfig) (p : Proto) (t : Transport) (k : DevClass)
    (hp : getProtocol c false = some (p, t))
    (hk : classFromFamily c.connectionType.family.value c.connectionType.https false = some k)
    (hm : mismatched c.connectionType.family c.connectionType.encryption c.connectionType.https = false) :
    Speaks k.name p.name := by
  rw [getProtocol_eq] at hp
  generalize c.connectionType.family = f at *
  generalize c.connectionType.encryption = e at *
  generalize c.connectionType.https = h at *
  have key : mismatched f e h = false → ∀ x ∈ (table f e h false), ∀ y ∈ classFromFamily f.value h false,
      (y = .smart ∧ x.1 = .smart) ∨ (y = .smartCam ∧ x.1 = .smartCam) ∨ (y = .iot .plug ∧ x.1 = .iot) ∨
        (y = .iot .bulb ∧ x.1 = .iot) := by
    cases f <;> cases e <;> cases h <;> decide +kernel
  rcases key hm (p, t) hp k hk with ⟨rfl, h1⟩ | ⟨rfl, h1⟩ | ⟨rfl, h1⟩ | ⟨rfl, h1⟩
  · cases h1; exact .smart
  · cases h1; exact .smartCam
  · cases h1; exact .iot _ (by decide)
  · cases h1; exact .iot _ (by decide)

/-- C50 is false of the listed combinations: each is accepted, with a class that needs another protocol. -/
theorem C50_mismatch (c : DeviceConfig)
    (hm : mismatched c.connectionType.family c.connectionType.encryption c.connectionType.https = true) :
    ∃ p t k, getProtocol c false = some (p, t) ∧
      classFromFamily c.connectionType.family.value c.connectionType.https false = some k ∧ ¬ Speaks k.name p.name := by
  rw [getProtocol_eq]
  generalize c.connectionType.family = f at *
  generalize c.connectionType.encryption = e at *
  generalize c.connectionType.https = h at *
  have key : mismatched f e h = true → ∃ x ∈ (table f e h false), ∃ y ∈ classFromFamily f.value h false,
      (y = .smart ∧ x.1 = .smartCam) ∨ (y = .smartCam ∧ x.1 = .smart) := by
    cases f <;> cases e <;> cases h <;> first
      | (intro hx; exact absurd hx (by decide))
      | (intro _; exact ⟨_, rfl, .smart, by decide +kernel, Or.inl ⟨rfl, rfl⟩⟩)
      | (intro _; exact ⟨_, rfl, .smartCam, by decide +kernel, Or.inr ⟨rfl, rfl⟩⟩)
  obtain ⟨⟨p, t⟩, hp, k, hk, h1 | h1⟩ := key hm
  · obtain ⟨rfl, h2⟩ := h1
    simp only at h2; subst h2
    refine ⟨_, _, _, hp, hk, fun hs => ?_⟩
    generalize hn : DevClass.name .smart = n at hs
    generalize hq : Proto.name .smartCam = q at hs
    cases hs with
    | iot _ => revert hq; decide
    | smart => revert hq; decide
    | smartCam => revert hn; decide
  · obtain ⟨rfl, h2⟩ := h1
    simp only at h2; subst h2
    refine ⟨_, _, _, hp, hk, fun hs => ?_⟩
    generalize hn : DevClass.name .smartCam = n at hs
    generalize hq : Proto.name .smart = q at hs
    cases hs with
    | iot _ => revert hq; decide
    | smart => revert hn; decide
    | smartCam => revert hq; decide

/-! ## Examples -/

example : getProtocol { ofHost "192.0.2.1" with connectionType := ⟨.smartTapoHub, .aes, none, true, none⟩ } false = some (.smartCam, .sslAes) := by decide +kernel

example : mismatched .smartTapoHub .aes true = false := rfl

end Kasa.Factory
