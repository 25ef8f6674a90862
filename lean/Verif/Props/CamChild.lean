import Verif.Spec.CamChild
import Verif.Props.DeviceInfo
/-!
# C56: cameras behind a hub
-/

namespace Kasa.DeviceInfo

open Ops SysInfo Spec

theorem run_info (steps : List CamStep) : ∀ (c : CamChild) (i : List (String × Json)), lastTold steps = some i →
    (c.run steps).fromParent = i ∧ (c.run steps).info = mapChild i := by
  have keep : ∀ (steps : List CamStep) (c : CamChild), lastTold steps = none →
      (c.run steps).fromParent = c.fromParent ∧ (c.run steps).info = c.info := by
    intro steps
    induction steps with
    | nil => intro c _; exact ⟨rfl, rfl⟩
    | cons s rest ih =>
      intro c h
      cases s with
      | told i => simp [lastTold] at h
      | read => exact ih c.read h
  induction steps with
  | nil => intro c i h; simp [lastTold] at h
  | cons s rest ih =>
    intro c i h
    cases s with
    | read => exact ih c.read i h
    | told j =>
      simp only [lastTold] at h
      cases hr : lastTold rest with
      | some k =>
        rw [hr] at h
        cases h
        exact ih (c.told j) _ hr
      | none =>
        rw [hr] at h
        cases h
        have := keep rest (c.told i) hr
        exact ⟨this.1, this.2⟩

/-- C56 for cameras behind a hub: after any history of what the hub said, what is said of the camera is what the hub said last. -/
theorem C56_camera_child (made : List (String × Json)) (steps : List CamStep) (last : List (String × Json))
    (hlast : lastTold steps = some last) (model family fwText version : String) (build : Option String) (hw : Json)
    (hm : Dict.get? last "device_model" = some (.str model)) (ht : Dict.get? last "device_type" = some (.str family))
    (hf : Dict.get? last "sw_ver" = some (.str fwText)) (hfw : Firmware fwText version build) (hh : Dict.get? last "hw_ver" = some hw) :
    ((CamChild.new made).run steps).deviceInfo = .ok
      { shortName := model, longName := model, brand := "tapo", family := family, type := cameraKind (some family), hardware := hw,
        firmware := version, build := build, auth := true, region := orNone (Dict.get? last "region") } := by
  have hr := (run_info steps (CamChild.new made) last hlast).1
  have hne : last.isEmpty = false := by
    cases last with
    | nil => simp at hm
    | cons p l => rfl
  unfold CamChild.deviceInfo camChildInfo
  rw [hr, hne]
  simp only [Bool.false_eq_true, if_false, item, hm, ht, hf, hh, text, textOf, bind, Except.bind, firmware_eq hfw, getOpt, pure, Except.pure]

/-- C56 is false of a camera behind a hub that was only just made, whatever the hub said of it when it was made: nothing can be read
about it until the hub tells it again. -/
theorem C56_camera_child_new (made : List (String × Json)) (reads : List CamStep) (h : lastTold reads = none) :
    ((CamChild.new made).run reads).deviceInfo = .error (.other "KeyError") := by
  have : ((CamChild.new made).run reads).fromParent = [] := by
    have gen : ∀ (reads : List CamStep) (c : CamChild), lastTold reads = none → (c.run reads).fromParent = c.fromParent := by
      intro reads
      induction reads with
      | nil => intro c _; rfl
      | cons s rest ih =>
        intro c h
        cases s with
        | told i => simp [lastTold] at h
        | read => exact ih c.read h
    exact gen reads _ h
  unfold CamChild.deviceInfo
  rw [this]
  rfl

/-- C56: the values hubs name differently are found under the names of the other devices, and every other value under its own. -/
theorem C56_camera_child_names (made : List (String × Json)) (steps : List CamStep) (last : List (String × Json))
    (hlast : lastTold steps = some last) (hwf : Dict.WF last) :
    (∀ old new, (old, new) ∈ childRenamed → new ∉ Dict.keys last →
      Dict.get? ((CamChild.new made).run steps).info new = Dict.get? last old) ∧
    (∀ k, (∀ p ∈ childRenamed, k ≠ p.1 ∧ k ≠ p.2) → Dict.get? ((CamChild.new made).run steps).info k = Dict.get? last k) := by
  rw [(run_info steps (CamChild.new made) last hlast).2]
  have hmap : ∀ (k : String), (∀ k' ∈ Dict.keys last, childKey k' = childKey k → k' = k) →
      Dict.get? (mapChild last) (childKey k) = Dict.get? last k := by
    intro k huniq
    have gen : ∀ (l : List (String × Json)) (acc : List (String × Json)), Dict.WF l →
        (∀ k' ∈ Dict.keys l, childKey k' = childKey k → k' = k) →
        Dict.get? (l.foldl (fun d p => Dict.set d (childKey p.1) p.2) acc) (childKey k) =
          (Dict.get? l k).or (Dict.get? acc (childKey k)) := by
      intro l
      induction l with
      | nil => intro acc _ _; simp
      | cons p l ih =>
        intro acc hwf hu
        obtain ⟨a, v⟩ := p
        have hwf' := Dict.WF_cons.mp hwf
        rw [List.foldl_cons, ih _ hwf'.2 (fun k' hk' => hu k' (by rw [Dict.keys_cons]; exact List.mem_cons_of_mem _ hk')), Dict.get?_cons]
        by_cases ha : a = k
        · subst ha
          have : Dict.get? l a = none := Dict.get?_eq_none_iff.mpr hwf'.1
          rw [this, if_pos rfl, Dict.get?_set_self]
          rfl
        · have hne : childKey a ≠ childKey k := fun e => ha (hu a (by rw [Dict.keys_cons]; exact List.mem_cons_self) e)
          rw [if_neg ha, Dict.get?_set_ne _ _ hne]
    rw [mapChild, gen last [] hwf huniq]
    simp [Dict.get?]
  have h1 : ∀ p ∈ childRenamed, childKey p.1 = p.2 := by decide +kernel
  have h2 : ∀ k, (∀ p ∈ childRenamed, k ≠ p.1) → childKey k = k := by
    intro k hk
    unfold childKey
    rw [Dict.get?_eq_none_iff.mpr]
    · rfl
    · intro hm
      obtain ⟨p, hp, e⟩ := List.mem_map.mp hm
      exact hk p hp e.symm
  have h3 : ∀ p ∈ childRenamed, ∀ q ∈ childRenamed, q.2 = p.2 → q.1 = p.1 := by decide +kernel
  refine ⟨?_, ?_⟩
  · intro old new hp hnew
    have hm : childKey old = new := h1 _ hp
    rw [← hm]
    apply hmap
    intro k' hk' he
    rw [hm] at he
    by_cases hr : ∃ q ∈ childRenamed, k' = q.1
    · obtain ⟨q, hq, rfl⟩ := hr
      rw [h1 q hq] at he
      exact h3 (old, new) hp q hq he
    · rw [h2 k' (fun q hq e => hr ⟨q, hq, e⟩)] at he
      subst he
      exact absurd hk' hnew
  · intro k hk
    have hm : childKey k = k := h2 k (fun p hp => (hk p hp).1)
    have := hmap k (by
      intro k' _ he
      rw [hm] at he
      by_cases hr : ∃ q ∈ childRenamed, k' = q.1
      · obtain ⟨q, hq, rfl⟩ := hr
        rw [h1 q hq] at he
        exact absurd he.symm (hk q hq).2
      · rw [h2 k' (fun q hq e => hr ⟨q, hq, e⟩)] at he
        exact he)
    rw [hm] at this
    exact this

theorem mapChild_type (made : List (String × Json)) (hwf : Dict.WF made) :
    Dict.get? (mapChild made) "device_type" = Dict.get? made "device_type" :=
  (C56_camera_child_names [] [.told made] made rfl hwf).2 "device_type" (by decide +kernel)

/-- C56: a camera behind a hub is of one kind for good: as long as the hub says one type of it, every reading of its kind, at any
moment of any history, is the kind of that type, and is the one of everything that is said of the camera. -/
theorem C56_camera_child_kind (made : List (String × Json)) (steps : List CamStep) (family : String) (hne : family ≠ "")
    (hmade : Dict.WF made ∧ Dict.get? made "device_type" = some (.str family))
    (hsteps : ∀ i, .told i ∈ steps → Dict.WF i ∧ Dict.get? i "device_type" = some (.str family)) :
    ((CamChild.new made).run steps).deviceType = cameraKind (some family) := by
  have hk : cameraKind (some family) ≠ .unknown := by
    have : family.isEmpty = false := by
      rw [← Bool.not_eq_true, String.isEmpty_iff]
      exact hne
    simp only [cameraKind, this, Bool.false_eq_true, if_false]
    split
    · simp
    · split <;> simp
  let Good : CamChild → Prop := fun c =>
    (c.kind = .unknown ∨ c.kind = cameraKind (some family)) ∧ Dict.get? c.info "device_type" = some (.str family)
  have hread : ∀ c, Good c → c.deviceType = cameraKind (some family) := by
    rintro c ⟨h1, h2⟩
    have hi : c.info.isEmpty = false := by
      cases hc : c.info with
      | nil => rw [hc] at h2; simp at h2
      | cons p l => rfl
    unfold CamChild.deviceType cameraDeviceType
    rw [hi]
    rcases h1 with h | h
    · simp [h, textOf, h2]
    · simp [h, hk]
  have hgood : ∀ (steps : List CamStep) (c : CamChild), Good c →
      (∀ i, .told i ∈ steps → Dict.WF i ∧ Dict.get? i "device_type" = some (.str family)) → Good (c.run steps) := by
    intro steps
    induction steps with
    | nil => intro c h _; exact h
    | cons s rest ih =>
      intro c h hs
      apply ih (c.step s)
      · cases s with
        | told i =>
          have := hs i List.mem_cons_self
          exact ⟨h.1, by show Dict.get? (mapChild i) "device_type" = _; rw [mapChild_type i this.1, this.2]⟩
        | read => exact ⟨.inr (hread c h), h.2⟩
      · intro i hi
        exact hs i (List.mem_cons_of_mem _ hi)
  apply hread
  apply hgood steps _ _ hsteps
  exact ⟨.inl rfl, by show Dict.get? (mapChild made) "device_type" = _; rw [mapChild_type made hmade.1, hmade.2]⟩

/-! A camera behind an H200. -/

def sampleCam : List (String × Json) := [
  ("device_id", .str "1"), ("category", .str "camera"), ("device_type", .str "SMART.TAPODOORBELL"), ("device_model", .str "D230"),
  ("sw_ver", .str "1.1.19 Build 20241011"), ("hw_ver", .str "1.20"), ("region", .str "EU")]

example : (((CamChild.new []).run [.read, .told sampleCam]).deviceInfo.toOption.map
    (fun i => ((i.shortName, i.firmware, i.build), i.type, i.region)))
    = some (("D230", "1.1.19", some "Build 20241011"), .doorbell, .str "EU") := by decide +kernel
example : Dict.get? ((CamChild.new sampleCam).run [.told sampleCam]).info "model" = some (.str "D230") := by rfl
example : ((CamChild.new sampleCam).run [.read, .told sampleCam, .read]).deviceType = .doorbell := by decide +kernel
example : Firmware "1.1.19 Build 20241011" "1.1.19" (some "Build 20241011") := Firmware.build "1.1.19" "Build 20241011" (by decide)
example : Dict.WF sampleCam ∧ Dict.get? sampleCam "device_type" = some (.str "SMART.TAPODOORBELL") := by
  unfold Dict.WF; decide +kernel

end Kasa.DeviceInfo
