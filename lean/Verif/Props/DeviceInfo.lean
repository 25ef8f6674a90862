import Verif.Spec.DeviceInfo
/-!
# C44, C56, C57: kinds, names, versions and addresses
-/

namespace Kasa.DeviceInfo

open Ops SysInfo Spec

/-! ## Kinds -/

theorem isInfix_iff (x : List Char) : ∀ y, isInfix x y = true ↔ ∃ a b, y = a ++ x ++ b
  | [] => by
    unfold isInfix
    constructor
    · intro h
      exact ⟨[], [], by simpa using (List.isEmpty_iff.mp h).symm ▸ rfl⟩
    · rintro ⟨a, b, h⟩
      have : x = [] := by
        cases x with
        | nil => rfl
        | cons c cs => simp at h
      simp [this]
  | c :: cs => by
    unfold isInfix
    rw [Bool.or_eq_true, isInfix_iff x cs, List.isPrefixOf_iff_prefix]
    constructor
    · rintro (⟨t, h⟩ | ⟨a, b, h⟩)
      · exact ⟨[], t, by simpa using h.symm⟩
      · exact ⟨c :: a, b, by simp [h]⟩
    · rintro ⟨a, b, h⟩
      cases a with
      | nil => exact Or.inl ⟨b, by simpa using h.symm⟩
      | cons a as =>
        simp at h
        exact Or.inr ⟨as, b, by simp [h.2]⟩

theorem hasText_iff (part whole : String) : hasText part whole = true ↔ Occurs part whole := isInfix_iff _ _

/-- The check of a row. -/
def applies (has : String → Bool) (type : String) (r : Row) : Bool :=
  (match r.text with | none => true | some t => hasText t type) && (match r.component with | none => true | some c => has c)

theorem applies_iff (components : List String) (type : String) (r : Row) :
    applies (fun c => components.contains c) type r = true ↔ Applies components type r := by
  obtain ⟨t, c, k⟩ := r
  unfold applies Applies
  rw [Bool.and_eq_true]
  cases t <;> cases c <;> simp [hasText_iff]

def firstKind (has : String → Bool) (type : String) : List Row → DeviceType
  | [] => .plug
  | r :: rs => if applies has type r then r.kind else firstKind has type rs

theorem firstKind_spec (components : List String) (type : String) (rs : List Row) :
    (∃ (i : Nat) (r : Row), rs[i]? = some r ∧ Applies components type r ∧
      (∀ (j : Nat) (r' : Row), j < i → rs[j]? = some r' → ¬ Applies components type r') ∧
      firstKind (fun c => components.contains c) type rs = r.kind) ∨
    ((∀ r ∈ rs, ¬ Applies components type r) ∧ firstKind (fun c => components.contains c) type rs = .plug) := by
  induction rs with
  | nil => exact Or.inr ⟨fun r h => (by cases h), rfl⟩
  | cons r rs ih =>
    unfold firstKind
    by_cases h : applies (fun c => components.contains c) type r = true
    · rw [if_pos h]
      exact Or.inl ⟨0, r, rfl, (applies_iff _ _ _).mp h, fun j r' hj => absurd hj (Nat.not_lt_zero j), rfl⟩
    · rw [if_neg h]
      have hn : ¬ Applies components type r := fun hc => h ((applies_iff _ _ _).mpr hc)
      rcases ih with ⟨i, r', a, b, c, d⟩ | ⟨a, b⟩
      · refine Or.inl ⟨i + 1, r', by simpa using a, b, ?_, d⟩
        intro j r'' hj hr
        cases j with
        | zero => cases hr; exact hn
        | succ j => exact c j r'' (by omega) (by simpa using hr)
      · exact Or.inr ⟨fun r' hr => by
          rcases List.mem_cons.mp hr with rfl | hr
          · exact hn
          · exact a r' hr, b⟩

theorem smartKind_eq (has : String → Bool) (type : String) : smartKind has type = firstKind has type rows := by
  simp only [smartKind, plugOrStrip, rows, firstKind, applies, Bool.and_true, Bool.true_and]
  cases hasText "HUB" type <;> cases hasText "PLUG" type <;> cases has "child_device" <;>
    cases has "light_strip" <;> cases hasText "SWITCH" type <;> rfl

/-- C44: the kind of a device is that of the first row of the table that applies to its components and type, and plug if none
does. -/
theorem C44_kind (components : List String) (type : String) :
    (∃ (i : Nat) (r : Row), rows[i]? = some r ∧ Applies components type r ∧
      (∀ (j : Nat) (r' : Row), j < i → rows[j]? = some r' → ¬ Applies components type r') ∧
      smartKind (fun c => components.contains c) type = r.kind) ∨
    ((∀ r ∈ rows, ¬ Applies components type r) ∧ smartKind (fun c => components.contains c) type = .plug) := by
  rw [smartKind_eq]
  exact firstKind_spec components type rows

/-- C44: it is never undefined, and the order of the components does not matter. -/
theorem C44_defined (components components' : List String) (type : String) :
    smartKind (fun c => components.contains c) type ≠ .unknown ∧
    ((∀ c, c ∈ components ↔ c ∈ components') →
      smartKind (fun c => components.contains c) type = smartKind (fun c => components'.contains c) type) := by
  constructor
  · rcases C44_kind components type with ⟨i, r, h, _, _, e⟩ | ⟨_, e⟩
    · rw [e]
      have hm : r ∈ rows := List.mem_of_getElem? h
      have : ∀ r ∈ rows, r.kind ≠ .unknown := by decide
      exact this r hm
    · rw [e]; decide
  · intro h
    have : (fun c => components.contains c) = (fun c => components'.contains c) := by
      funext c
      have := h c
      simp [this]
    rw [this]

/-- The kinds a device reports when asked again and again, while its type and components change. -/
def kindsOf (known : DeviceType) : List (Option String × List String) → List DeviceType
  | [] => []
  | (t, cs) :: rest => smartDeviceType known t cs :: kindsOf (smartDeviceType known t cs) rest

/-- C44: a device is of no known kind until it has both type and components, then of the kind they give, and it keeps it. -/
theorem C44_kept (known : DeviceType) (t : Option String) (cs : List String) (rest : List (Option String × List String)) :
    (known ≠ .unknown → ∀ k ∈ kindsOf known ((t, cs) :: rest), k = known) ∧
    (∀ type, t = some type → type ≠ "" → cs ≠ [] →
      ∀ k ∈ kindsOf .unknown ((t, cs) :: rest), k = smartKind (fun c => cs.contains c) type) ∧
    ((t = none ∨ t = some "" ∨ cs = []) → smartDeviceType .unknown t cs = .unknown) := by
  have stay : ∀ (l : List (Option String × List String)) (known : DeviceType), known ≠ .unknown → ∀ k ∈ kindsOf known l, k = known := by
    intro l
    induction l with
    | nil => intro known _ k hk; cases hk
    | cons p l ih =>
      intro known hkn k hk
      obtain ⟨t, cs⟩ := p
      have hs : smartDeviceType known t cs = known := by unfold smartDeviceType; rw [if_pos hkn]
      simp only [kindsOf, hs, List.mem_cons] at hk
      rcases hk with hk | hk
      · exact hk
      · exact ih known hkn k hk
  refine ⟨stay _ known, ?_, ?_⟩
  · intro type ht hne hcs k hk
    have h1 : type.isEmpty = false := by
      cases h : type.isEmpty with
      | false => rfl
      | true => exact absurd (String.isEmpty_iff.mp h) hne
    have h2 : cs.isEmpty = false := by
      cases cs with
      | nil => exact absurd rfl hcs
      | cons a r => rfl
    have hs : smartDeviceType .unknown t cs = smartKind (fun c => cs.contains c) type := by
      rw [ht]
      unfold smartDeviceType
      rw [if_neg (by simp)]
      simp only [h1, h2]
      rfl
    simp only [kindsOf, hs, List.mem_cons] at hk
    rcases hk with hk | hk
    · exact hk
    · exact stay rest _ (C44_defined cs cs type).1 k hk
  · intro h
    unfold smartDeviceType
    rw [if_neg (by simp)]
    rcases h with h | h | h <;> subst h
    · rfl
    · rfl
    · cases t <;> simp

example : smartKind (fun c => ["brightness", "light_strip"].contains c) "SMART.TAPOBULB" = .lightStrip := by decide
example : smartKind (fun c => ["brightness"].contains c) "SMART.TAPOSWITCH" = .bulb := by decide

/-- C44 for children: the kind is that of the category, unknown for other categories, and once known it is kept. -/
theorem C44_child (known : DeviceType) (category : Option String) :
    (known ≠ .unknown → childDeviceType known category = known) ∧
    (∀ k cs c, (k, cs) ∈ Spec.categories → c ∈ cs → category = some c → childDeviceType .unknown category = k) ∧
    ((∀ k cs c, (k, cs) ∈ Spec.categories → category = some c → c ∉ cs) → childDeviceType .unknown category = .unknown) := by
  refine ⟨?_, ?_, ?_⟩
  · intro h
    unfold childDeviceType
    rw [if_pos h]
  · intro k cs c hm hc he
    subst he
    have : ∀ p ∈ Spec.categories, ∀ c ∈ p.2, childDeviceType .unknown (some c) = p.1 := by decide +kernel
    exact this (k, cs) hm c hc
  · intro h
    unfold childDeviceType
    rw [if_neg (by simp)]
    cases category with
    | none => rfl
    | some c =>
      simp only
      cases hg : Dict.get? childKinds c with
      | none => simp
      | some k =>
        have : ∀ p ∈ childKinds, ∃ q ∈ Spec.categories, p.1 ∈ q.2 := by decide +kernel
        obtain ⟨q, hq, hc⟩ := this (c, k) (Dict.mem_of_get? hg)
        exact absurd hc (h q.1 q.2 c hq rfl)

example : childDeviceType .unknown (some "subg.trv") = .thermostat := by decide +kernel

/-- C44 for cameras: a type that ends in `HUB` is a hub, another that contains `DOORBELL` a doorbell, any other a camera. -/
theorem C44_camera (t : String) (h : t ≠ "") :
    ((∃ a, t.toList = a ++ "HUB".toList) → cameraKind (some t) = .hub) ∧
    ((¬ ∃ a, t.toList = a ++ "HUB".toList) → Occurs "DOORBELL" t → cameraKind (some t) = .doorbell) ∧
    ((¬ ∃ a, t.toList = a ++ "HUB".toList) → ¬ Occurs "DOORBELL" t → cameraKind (some t) = .camera) := by
  have h1 : t.isEmpty = false := by
    cases h' : t.isEmpty with
    | false => rfl
    | true => exact absurd (String.isEmpty_iff.mp h') h
  have hs : ("HUB".toList.isSuffixOf t.toList = true) ↔ ∃ a, t.toList = a ++ "HUB".toList := by
    rw [List.isSuffixOf_iff_suffix]
    constructor
    · rintro ⟨a, ha⟩; exact ⟨a, ha.symm⟩
    · rintro ⟨a, ha⟩; exact ⟨a, ha.symm⟩
  have he : cameraKind (some t) =
      if "HUB".toList.isSuffixOf t.toList then .hub else if hasText "DOORBELL" t then .doorbell else .camera := by
    change (if t.isEmpty then _ else _) = _
    rw [h1]
    rfl
  rw [he]
  refine ⟨?_, ?_, ?_⟩
  · intro ha
    rw [if_pos (hs.mpr ha)]
  · intro ha hb
    rw [if_neg (fun h => ha (hs.mp h)), if_pos ((hasText_iff _ _).mpr hb)]
  · intro ha hb
    rw [if_neg (fun h => ha (hs.mp h)), if_neg (fun h => hb ((hasText_iff _ _).mp h))]

example : cameraKind (some "SMART.TAPOHUB") = .hub := by decide
example : cameraKind (some "SMART.TAPODOORBELL") = .doorbell := by decide

/-! ## Names and versions -/

theorem splitAt_some (c : Char) (a b : List Char) (h : c ∉ a) : splitAt c (a ++ c :: b) = (a, some b) := by
  induction a with
  | nil => simp [splitAt]
  | cons x a ih =>
    have hx : x ≠ c := fun e => h (by simp [e])
    have ih := ih (fun hm => h (List.mem_cons_of_mem _ hm))
    simp only [List.cons_append, splitAt]
    rw [if_neg hx, ih]

theorem splitAt_none (c : Char) (a : List Char) (h : c ∉ a) : splitAt c a = (a, none) := by
  induction a with
  | nil => rfl
  | cons x a ih =>
    have hx : x ≠ c := fun e => h (by simp [e])
    have ih := ih (fun hm => h (List.mem_cons_of_mem _ hm))
    simp only [splitAt]
    rw [if_neg hx, ih]

theorem without_of_not_mem (c : Char) (s : List Char) (h : c ∉ s) : without c s = s := by
  unfold without
  rw [List.filter_eq_self]
  intro x hx
  have : x ≠ c := fun e => h (e ▸ hx)
  simp [this]

theorem firmware_space (v b : String) (h : ' ' ∉ v.toList) : firmware (v ++ " " ++ b) = (v, some b) := by
  unfold firmware
  have : (v ++ " " ++ b).toList = v.toList ++ ' ' :: b.toList := by simp
  rw [this, splitAt_some _ _ _ h]
  simp

theorem firmware_plain (v : String) (h : ' ' ∉ v.toList) : firmware v = (v, none) := by
  unfold firmware
  rw [splitAt_none _ _ h]
  simp

theorem region_given (m r : String) (hm : '(' ∉ m.toList) (hr : ')' ∉ r.toList) : modelAndRegion (m ++ "(" ++ r ++ ")") = (m, r) := by
  unfold modelAndRegion
  have : (m ++ "(" ++ r ++ ")").toList = m.toList ++ '(' :: (r.toList ++ [')']) := by simp
  rw [this, splitAt_some _ _ _ hm]
  have : without ')' (r.toList ++ [')']) = r.toList := by
    unfold without
    rw [List.filter_append]
    have := without_of_not_mem ')' r.toList hr
    unfold without at this
    rw [this]
    simp
  simp [this]

theorem region_missing (m : String) (hm : '(' ∉ m.toList) : modelAndRegion m = (m, "") := by
  unfold modelAndRegion
  rw [splitAt_none _ _ hm]
  simp [without]

/-- How a device spells its firmware: a version, and a build after a space. -/
inductive Firmware : String → String → Option String → Prop
  | plain (v : String) : ' ' ∉ v.toList → Firmware v v none
  | build (v b : String) : ' ' ∉ v.toList → Firmware (v ++ " " ++ b) v (some b)

theorem firmware_eq {s v : String} {b : Option String} (h : Firmware s v b) : firmware s = (v, b) := by
  cases h with
  | plain _ h => exact firmware_plain _ h
  | build v b h => exact firmware_space _ _ h

theorem first_space (l : List Char) (h : ' ' ∈ l) : ∃ a b, l = a ++ ' ' :: b ∧ ' ' ∉ a := by
  induction l with
  | nil => cases h
  | cons x l ih =>
    by_cases hx : x = ' '
    · exact ⟨[], l, by simp [hx], by simp⟩
    · rcases List.mem_cons.mp h with e | hm
      · exact absurd e.symm hx
      · obtain ⟨a, b, e, hn⟩ := ih hm
        refine ⟨x :: a, b, by simp [e], ?_⟩
        intro hc
        rcases List.mem_cons.mp hc with e | hc
        · exact hx e.symm
        · exact hn hc

/-- C56: version and build of every firmware string are what is before and after its first space. -/
theorem C56_firmware (s : String) : ∃ v b, Firmware s v b ∧ firmware s = (v, b) := by
  by_cases h : ' ' ∈ s.toList
  · obtain ⟨a, b, hab, hn⟩ := first_space s.toList h
    have hs : s = String.ofList a ++ " " ++ String.ofList b := by
      apply String.toList_inj.mp
      simp [hab]
    have hf : Firmware s (String.ofList a) (some (String.ofList b)) := by
      rw [hs]
      exact .build _ _ (by simpa using hn)
    exact ⟨_, _, hf, firmware_eq hf⟩
  · have hf : Firmware s s none := .plain s h
    exact ⟨_, _, hf, firmware_eq hf⟩

/-- What discovery says about the model: a name, a region in parentheses, or nothing at all. -/
inductive Discovered : Option Json → String → Option String → String → Prop
  | region (kvs : List (String × Json)) (m r short : String) :
      Dict.get? kvs "device_model" = some (.str (m ++ "(" ++ r ++ ")")) → '(' ∉ m.toList → ')' ∉ r.toList → r ≠ "" →
      Discovered (some (.obj kvs)) m (some r) short
  | plain (kvs : List (String × Json)) (m short : String) :
      Dict.get? kvs "device_model" = some (.str m) → '(' ∉ m.toList → Discovered (some (.obj kvs)) m none short
  | nothing (short : String) : Discovered none short none short

/-- The region of the discovery, else the specs of the device. -/
def regionOr (di : List (String × Json)) : Option String → Json
  | some r => .str r
  | none => orNone (Dict.get? di "specs")

theorem smartNames_eq (di : List (String × Json)) (short long : String) (region : Option String) (discovery : Option Json)
    (h : Discovered discovery long region short) :
    smartNames (.obj di) short discovery =
      .ok (long, regionOr di region) := by
  cases h with
  | region kvs m r short hg hm hr hne =>
    simp only [smartNames, item, hg, text, bind, Except.bind, region_given _ _ hm hr]
    have : r.isEmpty = false := by
      cases h' : r.isEmpty with
      | false => rfl
      | true => exact absurd (String.isEmpty_iff.mp h') hne
    rw [this]
    rfl
  | plain kvs m short hg hm =>
    simp only [smartNames, item, hg, text, bind, Except.bind, region_missing _ hm]
    rfl
  | nothing => rfl

theorem splitAll_two (c : Char) (a b : List Char) (ha : c ∉ a) (hb : c ∉ b) : splitAll c (a ++ c :: b) = [a, b] := by
  have one : ∀ b : List Char, c ∉ b → splitAll c b = [b] := by
    intro b
    induction b with
    | nil => intro _; rfl
    | cons x b ih =>
      intro hb
      have hx : x ≠ c := fun e => hb (by simp [e])
      simp only [splitAll]
      rw [if_neg hx, ih (fun hm => hb (List.mem_cons_of_mem _ hm))]
  induction a with
  | nil => simp [splitAll, one b hb]
  | cons x a ih =>
    have hx : x ≠ c := fun e => ha (by simp [e])
    have ih := ih (fun hm => ha (List.mem_cons_of_mem _ hm))
    simp only [List.cons_append, splitAll]
    rw [if_neg hx, ih]

/-- The ids of the components. -/
theorem componentIds_ok (ids : List String) (extra : String → List (String × Json)) :
    componentIds (ids.map (fun i => .obj (("id", .str i) :: extra i))) = .ok (ids.map .str) := by
  induction ids with
  | nil => rfl
  | cons i ids ih =>
    simp only [List.map_cons, componentIds, ih]
    rfl

/-- C56: for every SMART device, model, names, region, brand, kind, hardware and firmware are those of its answers and, for the long
name and the region, of its discovery; the region falls back to the specs.  Missing: types with other than one dot, see `C56_dots`. -/
theorem C56_smart_partial (lower : String → String) (di : List (String × Json)) (ids : List String) (extra : String → List (String × Json))
    (info : List (String × Json)) (discovery : Option Json)
    (short long proto dev fwText version : String) (build region : Option String) (hw : Json)
    (h1 : Dict.get? info "get_device_info" = some (.obj di))
    (h2 : Dict.get? info "component_nego" = some (.obj [("component_list", .arr (ids.map (fun i => .obj (("id", .str i) :: extra i))))]))
    (hm : Dict.get? di "model" = some (.str short))
    (ht : Dict.get? di "type" = some (.str (proto ++ "." ++ dev))) (hp : '.' ∉ proto.toList) (hd : '.' ∉ dev.toList)
    (hf : Dict.get? di "fw_ver" = some (.str fwText)) (hfw : Firmware fwText version build)
    (hh : Dict.get? di "hw_ver" = some hw) (hdis : Discovered discovery long region short) :
    smartInfo lower (.obj info) discovery = .ok
      { shortName := short, longName := long, brand := lower (String.ofList (dev.toList.take 4)), family := proto ++ "." ++ dev,
        type := smartKind (fun c => ids.contains c) (proto ++ "." ++ dev), hardware := hw, firmware := version, build := build,
        auth := true, region := regionOr di region } := by
  have hb : brandOf lower (proto ++ "." ++ dev) = .ok (lower (String.ofList (dev.toList.take 4))) := by
    unfold brandOf
    have : (proto ++ "." ++ dev).toList = proto.toList ++ '.' :: dev.toList := by simp
    rw [this, splitAll_two _ _ _ hp hd]
  have hk : (fun c => decide (Json.str c ∈ ids.map Json.str)) = (fun c => ids.contains c) := by
    funext c
    simp
  unfold smartInfo
  simp only [item, h1, h2, hm, ht, hf, hh, text, bind, Except.bind, smartNames_eq di short long region discovery hdis, hb, firmware_eq hfw]
  have hl : Dict.get? [("component_list", Json.arr (ids.map (fun i => .obj (("id", .str i) :: extra i))))] "component_list" =
      some (Json.arr (ids.map (fun i => .obj (("id", .str i) :: extra i)))) := rfl
  simp only [hl, items, componentIds_ok, hk, pure, Except.pure]

/-- C56 for legacy devices: name and region come from the model, the region being empty if there is none. -/
theorem C56_legacy (lower : String → String) (info : Json) (sys : List (String × Json)) (auth : Bool) (kind : DeviceType)
    (modelText m r family fwText version : String) (build : Option String) (hw : Json)
    (hx : extract info = .ok (.obj sys)) (hk : deviceType lower info = .ok kind)
    (hm : Dict.get? sys "model" = some (.str modelText))
    (hmr : (modelText = m ++ "(" ++ r ++ ")" ∧ '(' ∉ m.toList ∧ ')' ∉ r.toList) ∨ (modelText = m ∧ '(' ∉ m.toList ∧ r = ""))
    (ht : Dict.get? sys "type" = some (.str family) ∨ (Dict.get? sys "type" = none ∧ Dict.get? sys "mic_type" = some (.str family)))
    (hf : Dict.get? sys "sw_ver" = some (.str fwText)) (hfw : Firmware fwText version build) (hh : Dict.get? sys "hw_ver" = some hw) :
    iotInfo lower info auth = .ok
      { shortName := m, longName := m, brand := "kasa", family := family, type := kind, hardware := hw, firmware := version,
        build := build, auth := auth, region := .str r } := by
  have hmr' : modelAndRegion modelText = (m, r) := by
    rcases hmr with ⟨rfl, a, b⟩ | ⟨rfl, a, rfl⟩
    · exact region_given m r a b
    · exact region_missing _ a
  have ht' : typeOf (.obj sys) = .ok (.str family) := by
    rcases ht with h | ⟨h, h'⟩
    · simp only [typeOf, getOr, getOpt, h, bind, Except.bind]
      rfl
    · simp only [typeOf, getOr, getOpt, h, h', bind, Except.bind]
      rfl
  unfold iotInfo
  simp only [hx, item, hm, hf, hh, text, bind, Except.bind, hmr', ht', hk, firmware_eq hfw, pure, Except.pure]

/-- C56 for cameras. -/
theorem C56_camera (basic : List (String × Json)) (discovery : Option Json) (short long family fwText version : String)
    (build : Option String) (hw : Json)
    (hm : Dict.get? basic "device_model" = some (.str short)) (ht : Dict.get? basic "device_type" = some (.str family))
    (hf : Dict.get? basic "sw_version" = some (.str fwText)) (hfw : Firmware fwText version build)
    (hh : Dict.get? basic "hw_version" = some hw)
    (hl : (discovery = none ∧ long = short) ∨ ∃ kvs, discovery = some (.obj kvs) ∧ Dict.get? kvs "device_model" = some (.str long)) :
    camInfo (.obj [("getDeviceInfo", .obj [("device_info", .obj [("basic_info", .obj basic)])])]) discovery = .ok
      { shortName := short, longName := long, brand := "tapo", family := family, type := cameraKind (some family), hardware := hw,
        firmware := version, build := build, auth := true, region := orNone (Dict.get? basic "region") } := by
  have hl' : camLongName short discovery = .ok long := by
    rcases hl with ⟨rfl, rfl⟩ | ⟨kvs, rfl, h⟩
    · rfl
    · simp only [camLongName, item, h, bind, Except.bind]
      rfl
  have e1 : item (.obj [("getDeviceInfo", .obj [("device_info", .obj [("basic_info", .obj basic)])])]) "getDeviceInfo" =
      .ok (.obj [("device_info", .obj [("basic_info", .obj basic)])]) := rfl
  have e2 : item (.obj [("device_info", .obj [("basic_info", .obj basic)])]) "device_info" = .ok (.obj [("basic_info", .obj basic)]) := rfl
  have e3 : item (.obj [("basic_info", .obj basic)]) "basic_info" = .ok (.obj basic) := rfl
  unfold camInfo
  simp only [e1, e2, e3, bind, Except.bind]
  simp only [item, hm, ht, hf, hh, text, hl', firmware_eq hfw, getOpt, pure, Except.pure]

/-- C56 is false of SMART types with none or several dots: nothing can be read about such a device. -/
theorem C56_dots (lower : String → String) (family : String) (h : (splitAll '.' family.toList).length ≠ 2) :
    brandOf lower family = .error (.other "ValueError") := by
  unfold brandOf
  match hs : splitAll '.' family.toList with
  | [] => rfl
  | [_] => rfl
  | [_, _] => rw [hs] at h; exact absurd rfl h
  | _ :: _ :: _ :: _ => rfl

def demoInfo : Json := .obj [
  ("get_device_info", .obj [("model", .str "P110"), ("type", .str "SMART.TAPOPLUG"), ("fw_ver", .str "1.3.0 Build 230905"),
    ("hw_ver", .str "1.0"), ("specs", .str "UK")]),
  ("component_nego", .obj [("component_list", .arr [.obj [("id", .str "device"), ("ver_code", .num 2)]])])]
example : ((smartInfo id demoInfo (some (.obj [("device_model", .str "P110(EU)")]))).toOption.map
    (fun i => ((i.shortName, i.longName, i.brand), (i.firmware, i.build), i.type)))
    = some (("P110", "P110", "TAPO"), ("1.3.0", some "Build 230905"), .plug) := by decide +kernel
example : (smartInfo id demoInfo none).toOption.map (fun i => (i.longName, i.region)) = some ("P110", .str "UK") := by decide +kernel

/-! ## The info of a camera under common names -/

/-- C56: a camera's info under the names of the other devices is its basic info: what is stored under a renamed key is that of the
original key, unless the device also reports the new name. -/
theorem C56_mapped (basic : List (String × Json)) (hwf : Dict.WF basic) (k : String)
    (huniq : ∀ k' ∈ Dict.keys basic, mappedKey k' = mappedKey k → k' = k) :
    Dict.get? (mapInfo basic) (mappedKey k) = Dict.get? basic k := by
  have gen : ∀ (l : List (String × Json)) (acc : List (String × Json)), Dict.WF l → (∀ k' ∈ Dict.keys l, mappedKey k' = mappedKey k → k' = k) →
      Dict.get? (l.foldl (fun d p => Dict.set d (mappedKey p.1) p.2) acc) (mappedKey k) =
        (Dict.get? l k).or (Dict.get? acc (mappedKey k)) := by
    intro l
    induction l with
    | nil => intro acc _ _; simp
    | cons p l ih =>
      intro acc hwf hu
      obtain ⟨a, v⟩ := p
      have hwf' := Dict.WF_cons.mp hwf
      rw [List.foldl_cons, ih _ hwf'.2 (fun k' hk' => hu k' (by rw [Dict.keys_cons]; exact List.mem_cons_of_mem _ hk')), Dict.get?_cons]
      by_cases ha : a = k
      · subst ha
        have : Dict.get? l a = none := Dict.get?_eq_none_iff.mpr hwf'.1
        rw [this, if_pos rfl, Dict.get?_set_self]
        rfl
      · have hne : mappedKey a ≠ mappedKey k := fun e => ha (hu a (by rw [Dict.keys_cons]; exact List.mem_cons_self) e)
        rw [if_neg ha, Dict.get?_set_ne _ _ hne]
  rw [mapInfo, gen basic [] hwf huniq]
  simp [Dict.get?]

/-- C56: each of the values that cameras name differently is found under the name the other devices use, and every other value
under its own. -/
theorem C56_camera_names (basic : List (String × Json)) (hwf : Dict.WF basic) :
    (∀ old new, (old, new) ∈ Spec.renamed → new ∉ Dict.keys basic → Dict.get? (mapInfo basic) new = Dict.get? basic old) ∧
    (∀ k, (∀ p ∈ Spec.renamed, k ≠ p.1 ∧ k ≠ p.2) → Dict.get? (mapInfo basic) k = Dict.get? basic k) := by
  have h1 : ∀ p ∈ Spec.renamed, mappedKey p.1 = p.2 := by decide +kernel
  have h2 : ∀ k, (∀ p ∈ Spec.renamed, k ≠ p.1) → mappedKey k = k := by
    intro k hk
    unfold mappedKey
    rw [Dict.get?_eq_none_iff.mpr]
    · rfl
    · intro hm
      obtain ⟨p, hp, e⟩ := List.mem_map.mp hm
      exact hk p hp e.symm
  have h3 : ∀ p ∈ Spec.renamed, ∀ q ∈ Spec.renamed, q.2 = p.2 → q.1 = p.1 := by decide +kernel
  refine ⟨?_, ?_⟩
  · intro old new hp hnew
    have hm : mappedKey old = new := h1 _ hp
    rw [← hm]
    apply C56_mapped basic hwf
    intro k' hk' he
    rw [hm] at he
    by_cases hr : ∃ q ∈ Spec.renamed, k' = q.1
    · obtain ⟨q, hq, rfl⟩ := hr
      rw [h1 q hq] at he
      exact h3 (old, new) hp q hq he
    · rw [h2 k' (fun q hq e => hr ⟨q, hq, e⟩)] at he
      subst he
      exact absurd hk' hnew
  · intro k hk
    have hm : mappedKey k = k := h2 k (fun p hp => (hk p hp).1)
    have := C56_mapped basic hwf k (by
      intro k' _ he
      rw [hm] at he
      by_cases hr : ∃ q ∈ Spec.renamed, k' = q.1
      · obtain ⟨q, hq, rfl⟩ := hr
        rw [h1 q hq] at he
        exact absurd he.symm (hk q hq).2
      · rw [h2 k' (fun q hq e => hr ⟨q, hq, e⟩)] at he
        exact he)
    rw [hm] at this
    exact this

example : mapInfo [("device_model", .str "C210"), ("mac", .str "AA"), ("dev_id", .str "1")]
    = [("model", .str "C210"), ("mac", .str "AA"), ("device_id", .str "1")] := by rfl

/-! ## Mac addresses -/

theorem hexValue_lt (c : Char) (n : Nat) (h : hexValue c = some n) : n < 16 := by
  unfold hexValue at h
  split at h
  · rename_i hc
    cases h
    have := hc.2
    rw [Char.le_def, UInt32.le_iff_toNat_le] at this
    change c.toNat ≤ 57 at this
    have e : '0'.toNat = 48 := rfl
    omega
  · split at h
    · rename_i hc
      cases h
      have := hc.2
      rw [Char.le_def, UInt32.le_iff_toNat_le] at this
      change c.toNat ≤ 102 at this
      have e : 'a'.toNat = 97 := rfl
      omega
    · split at h
      · rename_i hc
        cases h
        have := hc.2
        rw [Char.le_def, UInt32.le_iff_toNat_le] at this
        change c.toNat ≤ 70 at this
        have e : 'A'.toNat = 65 := rfl
        omega
      · cases h

/-- A text that spells bytes as pairs of hexadecimal digits of either case. -/
inductive Spells : List Char → List Nat → Prop
  | nil : Spells [] []
  | cons {a b : Char} {x y : Nat} {s : List Char} {bs : List Nat} :
      hexValue a = some x → hexValue b = some y → Spells s bs → Spells (a :: b :: s) ((x * 16 + y) :: bs)

theorem hexValue_none : hexValue ' ' = none ∧ hexValue '\t' = none ∧ hexValue '\n' = none ∧ hexValue '\r' = none ∧
    hexValue '\x0b' = none ∧ hexValue '\x0c' = none ∧ hexValue ':' = none ∧ hexValue '-' = none := by decide

theorem not_space {c : Char} {n : Nat} (h : hexValue c = some n) : isSpace c = false := by
  cases hs : isSpace c with
  | false => rfl
  | true =>
    exfalso
    unfold isSpace at hs
    simp only [Bool.or_eq_true, decide_eq_true_eq] at hs
    rcases hs with ((((hs | hs) | hs) | hs) | hs) | hs <;> subst hs <;> (have h0 := hexValue_none; simp_all)

theorem fromHex_ok {s : List Char} {bs : List Nat} (h : Spells s bs) : fromHex s = .ok bs := by
  induction h with
  | nil => rfl
  | cons ha hb hs ih =>
    unfold fromHex
    rw [not_space ha]
    simp only [ha, hb, ih]
    rfl

theorem hex_no_sep {s : List Char} {bs : List Nat} (h : Spells s bs) : ':' ∉ s ∧ '-' ∉ s := by
  induction h with
  | nil => simp
  | cons ha hb hs ih =>
    have c1 : ∀ c n, hexValue c = some n → c ≠ ':' ∧ c ≠ '-' := by
      intro c n h
      constructor <;> intro e <;> subst e <;> (have h0 := hexValue_none; simp_all)
    have := c1 _ _ ha
    have := c1 _ _ hb
    simp only [List.mem_cons, not_or]
    grind

theorem dashes_id (s : List Char) (h : '-' ∉ s) : dashesToColons s = s := by
  unfold dashesToColons
  have : s.map (fun c => if c = '-' then ':' else c) = s.map id := by
    apply List.map_congr_left
    intro c hc
    have hne : c ≠ '-' := fun e => h (e ▸ hc)
    simp [hne]
  rw [this, List.map_id]

/-- C57: a legacy address that is written with separators is given with colons in their place. -/
theorem C57_separated (sys : List (String × Json)) (s : String)
    (hs : Dict.get? sys "mac" = some (.str s) ∨ (Dict.get? sys "mac" = none ∧ Dict.get? sys "mic_mac" = some (.str s)))
    (h : '-' ∈ s.toList ∨ ':' ∈ s.toList) :
    ∃ r, iotMac sys = .ok r ∧ r.toList.length = s.toList.length ∧ ∀ (i : Nat) (c : Char), s.toList[i]? = some c → r.toList[i]? = some (if c = '-' then ':' else c) := by
  have hne : s.isEmpty = false := by
    cases h' : s.isEmpty with
    | false => rfl
    | true =>
      have := String.isEmpty_iff.mp h'
      subst this
      simp at h
  have hv : (Dict.get? sys "mac").getD (orNone (Dict.get? sys "mic_mac")) = .str s := by
    rcases hs with h | ⟨h, h'⟩
    · rw [h]; rfl
    · rw [h, h']; rfl
  have hc : (dashesToColons s.toList).contains ':' = true := by
    rw [List.contains_iff_mem]
    unfold dashesToColons
    rw [List.mem_map]
    rcases h with h | h
    · exact ⟨'-', h, by simp⟩
    · exact ⟨':', h, by simp⟩
  refine ⟨String.ofList (dashesToColons s.toList), ?_, ?_, ?_⟩
  · unfold iotMac
    rw [hv]
    simp only [hne]
    unfold formatMac
    simp only [hc]
    rfl
  · simp [dashesToColons]
  · intro i c hi
    simp only [String.toList_ofList, dashesToColons, List.getElem?_map, hi]
    rfl

/-- The bytes as pairs of lower-case digits with colons between them. -/
def Colons : List Nat → List Char → Prop
  | [], _ => False
  | [b], s => ∃ x y, s = [x, y] ∧ hexValue x = some (b / 16) ∧ hexValue y = some (b % 16)
  | b :: bs, s => ∃ x y r, s = x :: y :: ':' :: r ∧ hexValue x = some (b / 16) ∧ hexValue y = some (b % 16) ∧ Colons bs r

theorem hexChar_value (n : Nat) (h : n < 16) : hexValue (hexChar n) = some n := by
  have : ∀ n : Fin 16, hexValue (hexChar n.val) = some n.val := by decide
  exact this ⟨n, h⟩

theorem colons_spec (bs : List Nat) (hne : bs ≠ []) (hb : ∀ b ∈ bs, b < 256) : Colons bs (colons (bs.map hexByte)) := by
  induction bs with
  | nil => exact absurd rfl hne
  | cons b bs ih =>
    have h1 := hb b List.mem_cons_self
    cases bs with
    | nil =>
      exact ⟨_, _, rfl, hexChar_value _ (by omega), hexChar_value _ (by omega)⟩
    | cons b' bs =>
      have ih := ih (by simp) (fun x hx => hb x (List.mem_cons_of_mem _ hx))
      exact ⟨_, _, _, rfl, hexChar_value _ (by omega), hexChar_value _ (by omega), ih⟩

/-- C57: a legacy address that is written as plain hexadecimal digits is given as the same bytes with colons between them. -/
theorem C57_plain (sys : List (String × Json)) (s : String) (bs : List Nat)
    (hs : Dict.get? sys "mac" = some (.str s) ∨ (Dict.get? sys "mac" = none ∧ Dict.get? sys "mic_mac" = some (.str s)))
    (hsp : Spells s.toList bs) (hbs : bs ≠ []) :
    ∃ r, iotMac sys = .ok r ∧ Colons bs r.toList := by
  have hlt : ∀ b ∈ bs, b < 256 := by
    clear hs hbs
    generalize s.toList = l at hsp
    induction hsp with
    | nil => intro b hb; cases hb
    | cons ha hb _ ih =>
      intro b' hb'
      rcases List.mem_cons.mp hb' with rfl | hb'
      · have := hexValue_lt _ _ ha
        have := hexValue_lt _ _ hb
        omega
      · exact ih b' hb'
  have hne : s.isEmpty = false := by
    cases h' : s.isEmpty with
    | false => rfl
    | true =>
      have := String.isEmpty_iff.mp h'
      subst this
      cases hsp
      exact absurd rfl hbs
  have hv : (Dict.get? sys "mac").getD (orNone (Dict.get? sys "mic_mac")) = .str s := by
    rcases hs with h | ⟨h, h'⟩
    · rw [h]; rfl
    · rw [h, h']; rfl
  have hno := hex_no_sep hsp
  refine ⟨String.ofList (colons (bs.map hexByte)), ?_, by rw [String.toList_ofList]; exact colons_spec bs hbs hlt⟩
  unfold iotMac
  rw [hv]
  simp only [hne]
  unfold formatMac
  rw [dashes_id _ hno.2]
  have : s.toList.contains ':' = false := by
    cases hc : s.toList.contains ':' with
    | false => rfl
    | true => exact absurd (List.contains_iff_mem.mp hc) hno.1
  simp only [this, fromHex_ok hsp]
  rfl

/-- C57: a legacy device without an address raises KasaException when asked for it. -/
theorem C57_missing (sys : List (String × Json)) :
    (Dict.get? sys "mac" = some (.str "") → iotMac sys = .error .kasa) ∧
    (Dict.get? sys "mac" = none → Dict.get? sys "mic_mac" = none → iotMac sys = .error .kasa) := by
  constructor
  · intro h
    unfold iotMac
    rw [h]
    rfl
  · intro h h'
    unfold iotMac
    rw [h, h']
    rfl

/-- C57 for the other devices: dashes are given as colons.  Missing: devices without an address, see `C57_smart_missing`. -/
theorem C57_smart_partial (info : List (String × Json)) (s : String) (h : Dict.get? info "mac" = some (.str s)) :
    ∃ r, smartMac info = some r ∧ r.toList = s.toList.map (fun c => if c = '-' then ':' else c) := by
  refine ⟨String.ofList (dashesToColons s.toList), ?_, ?_⟩
  · unfold smartMac
    rw [h]
    rfl
  · simp [dashesToColons]

/-- C57 is false of the other devices: one without an address reports the text `None`. -/
theorem C57_smart_missing (info : List (String × Json)) (h : Dict.get? info "mac" = none) : smartMac info = some "None" := by
  unfold smartMac
  rw [h]
  rfl

example : (iotMac [("mic_mac", .str "50C7BF0012ab")]).toOption = some "50:c7:bf:00:12:ab" := by decide
example : (iotMac [("mac", .str "50-C7-BF")]).toOption = some "50:C7:BF" := by decide

end Kasa.DeviceInfo
