import Verif.Model.CamDevice
import Verif.Spec.CamDevice
import Verif.Lemmas.SmartDevice
/-!
# Lemmas for cameras and camera hubs
-/

namespace Kasa.CamDevice

open PyM SmartDevice

/-! ## Renaming -/

theorem rename_spec (f : String → String) (ps : List (String × Json)) : ∀ acc : List (String × Json), Dict.WF acc →
    Dict.WF (ps.foldl (fun d p => Dict.set d (f p.1) p.2) acc) ∧
    (∀ k, k ∈ Dict.keys (ps.foldl (fun d p => Dict.set d (f p.1) p.2) acc) ↔ k ∈ Dict.keys acc ∨ ∃ p ∈ ps, f p.1 = k) ∧
    (∀ k v, (k, v) ∈ ps.foldl (fun d p => Dict.set d (f p.1) p.2) acc → (k, v) ∈ acc ∨ ∃ k0, f k0 = k ∧ (k0, v) ∈ ps) := by
  induction ps with
  | nil => exact fun acc h => ⟨h, fun k => by simp, fun k v h => Or.inl h⟩
  | cons p ps ih =>
    intro acc hw
    obtain ⟨h1, h2, h3⟩ := ih (Dict.set acc (f p.1) p.2) (Dict.WF_set hw _ _)
    refine ⟨h1, ?_, ?_⟩
    · intro k
      rw [List.foldl_cons, h2 k, Dict.mem_keys_set]
      constructor
      · rintro ((rfl | h) | ⟨q, hq, rfl⟩)
        · exact Or.inr ⟨p, List.mem_cons_self, rfl⟩
        · exact Or.inl h
        · exact Or.inr ⟨q, List.mem_cons_of_mem _ hq, rfl⟩
      · rintro (h | ⟨q, hq, rfl⟩)
        · exact Or.inl (Or.inr h)
        · rcases List.mem_cons.mp hq with rfl | hq
          · exact Or.inl (Or.inl rfl)
          · exact Or.inr ⟨q, hq, rfl⟩
    · intro k v h
      rcases h3 k v h with h | ⟨k0, rfl, h'⟩
      · have hg := Dict.get?_of_mem (Dict.WF_set hw (f p.1) p.2) h
        rw [Dict.get?_set] at hg
        split at hg
        · rename_i e
          cases hg
          exact Or.inr ⟨p.1, e, List.mem_cons_self⟩
        · exact Or.inl (Dict.mem_of_get? hg)
      · exact Or.inr ⟨k0, rfl, List.mem_cons_of_mem _ h'⟩

theorem childKey_called (k : String) : Called k (childKey k) := by
  unfold childKey
  split
  · subst_vars; exact .model
  · split
    · subst_vars; exact .firmware
    · split
      · subst_vars; exact .hardware
      · exact .same k ‹_› ‹_› ‹_›

theorem mapChildInfo_spec (i : Json) (h : ∃ ps, i = .obj ps) : CameraInfo i (mapChildInfo i) := by
  obtain ⟨ps, rfl⟩ := h
  obtain ⟨h1, h2, h3⟩ := rename_spec childKey ps [] (by unfold Dict.WF; exact List.nodup_nil)
  refine ⟨ps, _, rfl, rfl, h1, ?_, ?_⟩
  · intro k v hm
    exact ⟨_, childKey_called k, (h2 _).mpr (Or.inr ⟨(k, v), hm, rfl⟩)⟩
  · intro k' v hm
    rcases h3 k' v hm with h | ⟨k, rfl, h⟩
    · cases h
    · exact ⟨k, childKey_called k, h⟩

theorem mappedKey_called (k : String) : OwnCalled k (DeviceInfo.mappedKey k) := by
  unfold DeviceInfo.mappedKey
  simp only [Dict.get?_cons, Dict.get?_nil]
  split
  · subst_vars; exact .model
  · split
    · subst_vars; exact .alias
    · split
      · subst_vars; exact .firmware
      · split
        · subst_vars; exact .version
        · split
          · subst_vars; exact .hardware
          · split
            · subst_vars; exact .id
            · refine .same k ?_
              simp only [List.mem_cons, List.not_mem_nil, or_false, not_or]
              exact ⟨fun e => ‹¬ _ = k› e.symm, fun e => by simp_all, fun e => by simp_all, fun e => by simp_all, fun e => by simp_all, fun e => by simp_all⟩

/-! ## Reports are objects -/

theorem report_obj (i : Json) (r : Option String × Json) (h : report i = .ok r) : r.2 = i ∧ ∃ ps, i = .obj ps := by
  unfold report at h
  cases i with
  | obj ps =>
    cases hg : Ops.getOpt (.obj ps) "device_id" with
    | error e => rw [hg] at h; cases h
    | ok o =>
      rw [hg] at h
      cases o with
      | none => cases h; exact ⟨rfl, ps, rfl⟩
      | some v => cases v <;> cases h <;> exact ⟨rfl, ps, rfl⟩
  | null => cases h
  | bool b => cases h
  | num n => cases h
  | str s => cases h
  | arr a => cases h

theorem reportAll_obj (is : List Json) : ∀ rs, reportAll is = .ok rs → ∀ r ∈ rs, ∃ ps, r.2 = .obj ps := by
  induction is with
  | nil => intro rs h r hr; cases h; cases hr
  | cons i is ih =>
    intro rs h r hr
    unfold reportAll at h
    cases h1 : report i with
    | error e => rw [h1] at h; cases h
    | ok r1 =>
      rw [h1] at h
      cases h2 : reportAll is with
      | error e => rw [h2] at h; cases h
      | ok rest =>
        rw [h2] at h
        cases h
        rcases List.mem_cons.mp hr with rfl | hr
        · obtain ⟨e, ps, hp⟩ := report_obj i r h1
          exact ⟨ps, e.trans hp⟩
        · exact ih rest h2 r hr

theorem reports_obj (v : Json) (rs : List (Option String × Json)) (h : reports v = .ok rs) : ∀ r ∈ rs, ∃ ps, r.2 = .obj ps := by
  unfold reports at h
  cases h1 : Ops.item v "child_device_list" with
  | error e => rw [h1] at h; cases h
  | ok a =>
    rw [h1] at h
    cases h2 : DeviceInfo.items a with
    | error e => simp only [bind, Except.bind, h2] at h; cases h
    | ok is =>
      simp only [bind, Except.bind, h2] at h
      exact reportAll_obj is rs h

/-! ## What the parts leave alone -/

theorem addModule_only (m : Cls) : Rel OnlyMods (addModule m) := by
  intro l
  unfold addModule addSupported
  split
  · rfl
  · split <;> rfl

theorem only_initModules (c : CamEnv) : Rel OnlyMods (initModules c) :=
  Rel.forEach OnlyMods.refl OnlyMods.trans (fun m => addModule_only m) _

theorem feats_init : Rel SameButFeats initFeatures := by
  intro l
  unfold initFeatures
  split
  · exact Rel.forEach SameButFeats.refl SameButFeats.trans feats_module _ l
  · rfl

theorem initFeatures_net (l : Local) : (initFeatures l).2.net = l.net := by
  have := feats_init l
  unfold SameButFeats at this
  rw [this]

theorem grows_camChildUpdate (c : CamEnv) : Rel GrowsL (camChildUpdate c) := by
  refine Rel.bind GrowsL.trans (grows_now c.base) fun t => ?_
  refine Rel.bind GrowsL.trans (Rel.get GrowsL.refl) fun l => ?_
  refine Rel.bind GrowsL.trans (grows_childQuery c.base _) fun _ => ?_
  refine Rel.bind GrowsL.trans (grows_postAll t _) fun _ => ?_
  exact Rel.bind GrowsL.trans (grows_modifyDev _) fun _ => grows_of_net _ initFeatures_net

theorem grows_childUpdate (c : CamEnv) : Rel GrowsL (childUpdate c) := by
  intro l
  unfold childUpdate
  split
  · exact grows_camChildUpdate c l
  · exact SmartDevice.grows_childUpdate c.base l

theorem child_features : Rel SameChildL initFeatures := by
  intro l
  have h := feats_init l
  unfold SameButFeats at h
  unfold SameChildL
  rw [h]
  exact ⟨rfl, rfl, rfl, rfl, rfl, rfl, rfl⟩

theorem child_camUpdate (c : CamEnv) : Rel SameChildL (camChildUpdate c) := by
  refine Rel.bind SameChildL.trans (fun l => SameChild.refl _) fun t => ?_
  refine Rel.bind SameChildL.trans (Rel.get SameChildL.refl) fun l0 => ?_
  refine Rel.bind SameChildL.trans (child_childQuery c.base _) fun _ => ?_
  refine Rel.bind SameChildL.trans (fun l => ?_) fun _ => ?_
  · have h := same_postAll t (fun n => (dueNames false t l0.dev).contains n) l
    exact ⟨h.uid, h.id, h.info, h.comps, h.parent, h.keys, h.cam⟩
  · exact Rel.bind SameChildL.trans (fun l => ⟨rfl, rfl, rfl, rfl, rfl, rfl, rfl⟩) fun _ => child_features

theorem child_update (c : CamEnv) : Rel SameChildL (childUpdate c) := by
  intro l
  unfold childUpdate
  split
  · exact child_camUpdate c l
  · exact SmartDevice.child_update c.base l

theorem kids_update (c : CamEnv) (go : Bool) : Rel SameKids (updateKidsIf c go) := by
  intro w
  unfold updateKidsIf
  split
  · exact Rel.forEach SameKids.refl SameKids.trans (fun id => kids_onKid id _ (child_update c)) _ w
  · exact SameKids.refl w

theorem rest_updateKids (c : CamEnv) (go : Bool) : Rel Rest (updateKidsIf c go) := by
  intro w
  unfold updateKidsIf
  split
  · exact Rel.forEach Rest.refl Rest.trans (fun id => rest_onKid id _ (grows_childUpdate c)) _ w
  · exact Rest.refl w

theorem rest_features : Rel Rest (onDev initFeatures) := by
  intro w
  have h := feats_init ⟨w.dev, none, w.net⟩
  unfold SameButFeats at h
  refine ⟨?_, ?_⟩
  · change (initFeatures ⟨w.dev, none, w.net⟩).2.dev = { w.dev with feats := (initFeatures ⟨w.dev, none, w.net⟩).2.dev.feats }
    rw [h]
  · change Grows w.net (initFeatures ⟨w.dev, none, w.net⟩).2.net
    rw [initFeatures_net]
    exact Grows.refl _

/-! ## Creating a child -/

theorem askFirst_ok (c : CamEnv) (id : String) (w w' : World) (r : Answers) (h : askFirst c id w = (.ok r, w')) :
    c.base.answer w.net.asked.length (some id) cloudQuery = .ok r ∧ w' = { w with net := { w.net with asked := w.net.asked ++ [(some id, cloudQuery)] } } := by
  unfold askFirst at h
  cases ha : c.base.answer w.net.asked.length (some id) cloudQuery with
  | ok r' =>
    simp only [ha] at h
    cases h
    exact ⟨rfl, rfl⟩
  | error e =>
    simp only [ha] at h
    cases h

theorem rest_askFirst (c : CamEnv) (id : String) : Rel Rest (askFirst c id) := by
  intro w
  unfold askFirst
  simp only
  split <;> exact ⟨rfl, ⟨⟨_, rfl⟩, Nat.le_refl _⟩⟩

theorem rest_createSmart (c : CamEnv) (id : String) (info raw : Json) (last : Answers) : Rel Rest (createSmart c id info raw last) := by
  intro w
  unfold createSmart
  cases SmartDevice.componentsOf raw with
  | error e => exact Rest.refl w
  | ok cs =>
    simp only
    have h := grows_initModules c.base ⟨{ newChild w.born id (isHub w.dev) info cs with last := last }, some w.dev.last, w.net⟩
    split <;> exact ⟨rfl, h⟩

theorem rest_camChild (c : CamEnv) (id : String) (info raw : Json) : Rel Rest (camChild c id info raw) := by
  intro w
  unfold camChild
  cases componentsOf "component_list" raw with
  | error e => exact Rest.refl w
  | ok cs =>
    simp only
    have h := only_initModules c ⟨{ newChild w.born id (isHub w.dev) (mapChildInfo info) cs with cam := true }, some w.dev.last, w.net⟩
    unfold OnlyMods at h
    split <;> exact ⟨rfl, by rw [h]; exact Grows.refl _⟩

theorem rest_tryCreate (c : CamEnv) (id : String) (info raw : Json) : Rel Rest (tryCreate c id info raw) := by
  unfold tryCreate
  split
  · exact Rel.pure Rest.refl _
  · split
    · exact Rel.bind Rest.trans (Rel.bind Rest.trans (rest_askFirst c id) fun _ => rest_createSmart c id info raw _) fun _ => Rel.pure Rest.refl _
    · split
      · exact Rel.bind Rest.trans (rest_camChild c id info raw) fun _ => Rel.pure Rest.refl _
      · exact Rel.pure Rest.refl _

theorem rest_keepChild (id : String) (o : Option Dev) : Rel Rest (keepChild id o) := by
  cases o with
  | none => exact Rel.pure Rest.refl _
  | some d => exact Rel.bind Rest.trans (fun w => ⟨rfl, Grows.refl _⟩) fun _ => Rel.pure Rest.refl _

theorem rest_consider (c : CamEnv) (existing : List String) (comps : List (String × Json)) (r : Option String × Json) :
    Rel Rest (considerChild c existing comps r) := by
  intro w
  unfold considerChild
  split
  · exact Rest.refl w
  · split
    · exact Rest.refl w
    · split
      · exact Rest.refl w
      · exact Rel.bind Rest.trans (rest_tryCreate c _ _ _) (fun o => rest_keepChild _ o) w

theorem rest_createDelete (c : CamEnv) (comps : List (String × Json)) (rs : List (Option String × Json)) : Rel Rest (createDelete c comps rs) := by
  intro w
  unfold createDelete
  exact Rel.bind Rest.trans (Rel.foldM Rest.refl Rest.trans (fun _ r => Rel.bind Rest.trans (rest_consider c _ comps r) fun _ => Rel.pure Rest.refl _) _ _)
    (fun _ => Rel.bind Rest.trans (fun w => ⟨rfl, Grows.refl _⟩) fun _ => Rel.pure Rest.refl _) w

theorem pushInfo_rest (w : World) (r : Option String × Json) : (pushInfo w r).dev = w.dev ∧ (pushInfo w r).net = w.net ∧ (pushInfo w r).born = w.born := by
  unfold pushInfo
  split
  · exact ⟨rfl, rfl, rfl⟩
  · split <;> exact ⟨rfl, rfl, rfl⟩

theorem pushAll_rest (rs : List (Option String × Json)) : ∀ w, (rs.foldl pushInfo w).dev = w.dev ∧ (rs.foldl pushInfo w).net = w.net ∧ (rs.foldl pushInfo w).born = w.born := by
  induction rs with
  | nil => intro w; exact ⟨rfl, rfl, rfl⟩
  | cons r rs ih =>
    intro w
    rw [List.foldl_cons]
    have h1 := ih (pushInfo w r)
    have h2 := pushInfo_rest w r
    exact ⟨h1.1.trans h2.1, h1.2.1.trans h2.2.1, h1.2.2.trans h2.2.2⟩

theorem rest_childrenInfo (c : CamEnv) : Rel Rest (updateChildrenInfo c) := by
  intro w
  unfold updateChildrenInfo
  split
  · exact Rest.refl w
  · refine Rel.bind Rest.trans (Rel.lift Rest.refl _) (fun _ => ?_) w
    refine Rel.bind Rest.trans (Rel.lift Rest.refl _) (fun rs => ?_)
    refine Rel.bind Rest.trans (rest_createDelete c _ _) (fun _ => ?_)
    refine Rel.bind Rest.trans (fun w => ?_) (fun _ => Rel.pure Rest.refl _)
    have h := pushAll_rest rs w
    refine ⟨?_, ?_⟩
    · change (rs.foldl pushInfo w).dev = { w.dev with feats := (rs.foldl pushInfo w).dev.feats }
      rw [h.1]
    · change Grows w.net (rs.foldl pushInfo w).net
      rw [h.2.1]
      exact Grows.refl _

/-! ## Pushing the info -/

/-- A child with the info last reported for it. -/
def withInfo (rs : List (Option String × Json)) (id : String) (d : Dev) : Dev :=
  match lastReported rs id with
  | some i => { d with info := stateOf d i }
  | none => d

theorem pushInfo_get (w : World) (r : Option String × Json) (id : String) :
    Dict.get? (pushInfo w r).kids id = (Dict.get? w.kids id).map (withInfo [r] id) := by
  have hw : ∀ d, withInfo [r] id d = if r.1 = some id then { d with info := stateOf d r.2 } else d := by
    intro d
    unfold withInfo
    rw [lastReported_cons]
    split
    · rename_i i h
      simp only [lastReported, List.filter_nil, List.getLast?_nil, Option.map_none, Option.none_or] at h
      split at h
      · rename_i hr
        cases h
        rw [if_pos hr]
      · cases h
    · rename_i h
      simp only [lastReported, List.filter_nil, List.getLast?_nil, Option.map_none, Option.none_or] at h
      split at h
      · cases h
      · rename_i hr
        rw [if_neg hr]
  unfold pushInfo
  split
  · rename_i h
    cases Dict.get? w.kids id with
    | none => rfl
    | some d => simp [hw, h]
  · rename_i i h
    split
    · rename_i hg
      by_cases hi : i = id
      · subst hi
        rw [hg]
        rfl
      · cases Dict.get? w.kids id with
        | none => rfl
        | some d => simp [hw, h, hi]
    · rename_i d hg
      simp only
      rw [Dict.get?_set]
      by_cases hi : i = id
      · subst hi
        rw [hg, if_pos rfl]
        simp [hw, h]
      · rw [if_neg hi]
        cases Dict.get? w.kids id with
        | none => rfl
        | some d => simp [hw, h, hi]

theorem pushAll_get (rs : List (Option String × Json)) : ∀ (w : World) (id : String),
    Dict.get? (rs.foldl pushInfo w).kids id = (Dict.get? w.kids id).map (withInfo rs id) := by
  induction rs with
  | nil =>
    intro w id
    cases h : Dict.get? w.kids id with
    | none => simp [h]
    | some d => simp [h, withInfo, lastReported]
  | cons r rs ih =>
    intro w id
    rw [List.foldl_cons, ih, pushInfo_get]
    cases Dict.get? w.kids id with
    | none => rfl
    | some d =>
      simp only [Option.map_some, Option.some.injEq]
      unfold withInfo
      rw [lastReported_cons r rs, lastReported_cons r []]
      cases lastReported rs id with
      | some i =>
        simp only [Option.some_or]
        split <;> rfl
      | none =>
        simp [lastReported]

theorem pushInfo_wf (w : World) (r : Option String × Json) (h : Dict.WF w.kids) : Dict.WF (pushInfo w r).kids := by
  unfold pushInfo
  split
  · exact h
  · split
    · exact h
    · exact Dict.WF_set h _ _

theorem pushAll_wf (rs : List (Option String × Json)) : ∀ w : World, Dict.WF w.kids → Dict.WF (rs.foldl pushInfo w).kids := by
  induction rs with
  | nil => exact fun w h => h
  | cons r rs ih => exact fun w h => ih _ (pushInfo_wf w r h)

/-! ## Which children are created -/

theorem category_sensor (info : Json) : (∃ cat, categoryOf info = some cat ∧ smartCategories.contains cat = true) ↔ IsSensor info := by
  unfold categoryOf IsSensor
  constructor
  · rintro ⟨cat, h1, h2⟩
    split at h1
    · rename_i s hs
      cases h1
      exact ⟨cat, List.contains_iff_mem.mp h2, hs⟩
    · cases h1
  · rintro ⟨cat, h1, h2⟩
    rw [h2]
    exact ⟨cat, rfl, List.contains_iff_mem.mpr h1⟩

theorem category_camera (info : Json) : (∃ cat, categoryOf info = some cat ∧ camCategories.contains cat = true) ↔ IsCamera info := by
  unfold categoryOf IsCamera camCategories
  constructor
  · rintro ⟨cat, h1, h2⟩
    split at h1
    · rename_i s hs
      cases h1
      have := List.contains_iff_mem.mp h2
      simp only [List.mem_cons, List.not_mem_nil, or_false] at this
      rw [hs, this]
    · cases h1
  · intro h
    rw [h]
    exact ⟨"camera", rfl, by decide⟩

/-- What is said of a child that was created at a time when `n` queries had been made. -/
structure Made (c : CamEnv) (name : String) (info : Json) (w w' : World) (d : Dev) : Prop where
  uid : d.uid = w.born
  id : d.id = some name
  born : w'.born = w.born + 1
  kids : w'.kids = w.kids
  cam : d.cam = true → IsCamera info
  sensor : d.cam = false → IsSensor info ∧ ∃ n r, c.base.answer n (some name) [("get_connect_cloud_state", .null)] = .ok r

theorem tryCreate_ok (c : CamEnv) (id : String) (info raw : Json) (w w' : World) (o : Option Dev) (h : tryCreate c id info raw w = (.ok o, w')) :
    (o = none ∧ w' = w ∧ ¬ Supported info) ∨ (∃ d, o = some d ∧ Made c id info w w' d ∧ Supported info) := by
  unfold tryCreate at h
  cases hc : categoryOf info with
  | none =>
    rw [hc] at h
    cases h
    refine Or.inl ⟨rfl, rfl, ?_⟩
    rintro (h | h)
    · obtain ⟨cat, h1, _⟩ := (category_camera info).mpr h
      rw [hc] at h1
      cases h1
    · obtain ⟨cat, h1, _⟩ := (category_sensor info).mpr h
      rw [hc] at h1
      cases h1
  | some cat =>
    rw [hc] at h
    simp only at h
    by_cases hs : smartCategories.contains cat = true
    · rw [if_pos hs] at h
      have hsensor := (category_sensor info).mp ⟨cat, hc, hs⟩
      obtain ⟨d, w2, h2, h⟩ := bind_eq_ok h
      cases h
      obtain ⟨r, w1, h1, h2⟩ := bind_eq_ok h2
      obtain ⟨a1, a2⟩ := askFirst_ok c id w w1 r h1
      unfold createSmart at h2
      cases hcs : SmartDevice.componentsOf raw with
      | error e => rw [hcs] at h2; cases h2
      | ok cs =>
        rw [hcs] at h2
        simp only at h2
        have hd := SmartDevice.only_initModules c.base ⟨{ newChild w1.born id (isHub w1.dev) info cs with last := r }, some w1.dev.last, w1.net⟩
        cases hi : SmartDevice.initModules c.base ⟨{ newChild w1.born id (isHub w1.dev) info cs with last := r }, some w1.dev.last, w1.net⟩ with
        | mk x l1 =>
          rw [hi] at h2 hd
          unfold OnlyMods at hd
          simp only at hd
          cases x with
          | error e => cases h2
          | ok u =>
            cases h2
            subst a2
            refine Or.inr ⟨_, rfl, ⟨?_, ?_, rfl, rfl, ?_, ?_⟩, Or.inr hsensor⟩
            · rw [hd]; rfl
            · rw [hd]; rfl
            · intro hcam
              rw [hd] at hcam
              cases hcam
            · intro _
              exact ⟨hsensor, _, r, a1⟩
    · rw [if_neg hs] at h
      by_cases hk : camCategories.contains cat = true
      · rw [if_pos hk] at h
        have hcamera := (category_camera info).mp ⟨cat, hc, hk⟩
        obtain ⟨d, w2, h2, h⟩ := bind_eq_ok h
        cases h
        unfold camChild at h2
        cases hcs : componentsOf "component_list" raw with
        | error e => rw [hcs] at h2; cases h2
        | ok cs =>
          rw [hcs] at h2
          simp only at h2
          have hd := only_initModules c ⟨{ newChild w.born id (isHub w.dev) (mapChildInfo info) cs with cam := true }, some w.dev.last, w.net⟩
          cases hi : initModules c ⟨{ newChild w.born id (isHub w.dev) (mapChildInfo info) cs with cam := true }, some w.dev.last, w.net⟩ with
          | mk x l1 =>
            rw [hi] at h2 hd
            unfold OnlyMods at hd
            simp only at hd
            cases x with
            | error e => cases h2
            | ok u =>
              cases h2
              refine Or.inr ⟨_, rfl, ⟨?_, ?_, rfl, rfl, fun _ => hcamera, ?_⟩, Or.inl hcamera⟩
              · rw [hd]; rfl
              · rw [hd]; rfl
              · intro hcam
                rw [hd] at hcam
                cases hcam
      · rw [if_neg hk] at h
        cases h
        refine Or.inl ⟨rfl, rfl, ?_⟩
        rintro (h | h)
        · obtain ⟨cat', h1, h2⟩ := (category_camera info).mpr h
          rw [hc] at h1
          cases h1
          exact hk h2
        · obtain ⟨cat', h1, h2⟩ := (category_sensor info).mpr h
          rw [hc] at h1
          cases h1
          exact hs h2

theorem consider_ok (c : CamEnv) (existing : List String) (comps : List (String × Json)) (r : Option String × Json) (w w' : World) (b : Bool)
    (h : considerChild c existing comps r w = (.ok b, w')) :
    (b = false ∧ w' = w ∧ ∀ id, r.1 = some id → id ∈ Dict.keys comps → id ∉ existing → ¬ Supported r.2) ∨
    (b = true ∧ ∃ id d w1, r.1 = some id ∧ id ∈ Dict.keys comps ∧ id ∉ existing ∧ Supported r.2 ∧ Made c id r.2 w w1 d ∧
      w' = { w1 with kids := Dict.set w.kids id d }) := by
  unfold considerChild at h
  cases hr : r.1 with
  | none =>
    rw [hr] at h
    cases h
    exact Or.inl ⟨rfl, rfl, fun id h => by cases h⟩
  | some id =>
    rw [hr] at h
    simp only at h
    cases hg : Dict.get? comps id with
    | none =>
      rw [hg] at h
      cases h
      refine Or.inl ⟨rfl, rfl, fun i hi hk => ?_⟩
      cases hi
      exact absurd hk (Dict.get?_eq_none_iff.mp hg)
    | some raw =>
      rw [hg] at h
      simp only at h
      have hk : id ∈ Dict.keys comps := List.mem_map_of_mem (f := Prod.fst) (Dict.mem_of_get? hg)
      by_cases he : existing.contains id = true
      · rw [if_pos he] at h
        cases h
        refine Or.inl ⟨rfl, rfl, fun i hi _ hne => ?_⟩
        cases hi
        exact absurd (List.contains_iff_mem.mp he) hne
      · rw [if_neg he] at h
        have hne : id ∉ existing := fun h => he (List.contains_iff_mem.mpr h)
        obtain ⟨o, w1, h1, h3⟩ := bind_eq_ok h
        clear h
        rcases tryCreate_ok c id r.2 raw w w1 o h1 with ⟨rfl, rfl, hno⟩ | ⟨d, rfl, hm, hs⟩
        · cases h3
          exact Or.inl ⟨rfl, rfl, fun i hi _ _ => hno⟩
        · cases h3
          exact Or.inr ⟨rfl, id, d, w1, rfl, hk, hne, hs, hm, by rw [← hm.kids]⟩

/-- What is said of a child that was created from one of several reports. -/
def FromReports (c : CamEnv) (rs : List (Option String × Json)) (id : String) (d : Dev) : Prop :=
  (d.cam = true → ∃ info, (some id, info) ∈ rs ∧ IsCamera info) ∧
  (d.cam = false → (∃ info, (some id, info) ∈ rs ∧ IsSensor info) ∧ ∃ n r, c.base.answer n (some id) [("get_connect_cloud_state", .null)] = .ok r)

theorem FromReports.cons {c : CamEnv} {rs : List (Option String × Json)} {id : String} {d : Dev} (r : Option String × Json)
    (h : FromReports c rs id d) : FromReports c (r :: rs) id d := by
  refine ⟨fun hc => ?_, fun hc => ?_⟩
  · obtain ⟨info, hm, hi⟩ := h.1 hc
    exact ⟨info, List.mem_cons_of_mem _ hm, hi⟩
  · obtain ⟨⟨info, hm, hi⟩, hr⟩ := h.2 hc
    exact ⟨⟨info, List.mem_cons_of_mem _ hm, hi⟩, hr⟩

theorem considerAll (c : CamEnv) (existing : List String) (comps : List (String × Json)) (rs : List (Option String × Json)) :
    ∀ (acc acc' : Bool) (w w' : World),
    foldM (fun changed r => considerChild c existing comps r >>= fun b => pure (changed || b)) acc rs w = (.ok acc', w') →
    (Dict.WF w.kids → Dict.WF w'.kids) ∧ w.born ≤ w'.born ∧
    (∀ id, id ∈ existing → Dict.get? w'.kids id = Dict.get? w.kids id) ∧
    (∀ id, id ∉ existing → (id ∈ Dict.keys w'.kids ↔ id ∈ Dict.keys w.kids ∨ (id ∈ Dict.keys comps ∧ ∃ info, (some id, info) ∈ rs ∧ Supported info))) ∧
    (∀ id d, id ∉ existing → Dict.get? w'.kids id = some d →
      Dict.get? w.kids id = some d ∨ (w.born ≤ d.uid ∧ d.uid < w'.born ∧ d.id = some id ∧ FromReports c rs id d)) ∧
    (acc' = true ↔ acc = true ∨ ∃ id info, id ∉ existing ∧ id ∈ Dict.keys comps ∧ (some id, info) ∈ rs ∧ Supported info) := by
  induction rs with
  | nil =>
    intro acc acc' w w' h
    cases h
    refine ⟨fun h => h, Nat.le_refl _, fun _ _ => rfl, fun id _ => ?_, fun id d _ h => Or.inl h, ?_⟩
    · constructor
      · exact fun h => Or.inl h
      · rintro (h | ⟨_, _, h, _⟩)
        · exact h
        · cases h
    · constructor
      · exact fun h => Or.inl h
      · rintro (h | ⟨_, _, _, _, h, _⟩)
        · exact h
        · cases h
  | cons r rs ih =>
    intro acc acc' w w' h
    rw [foldM_cons] at h
    obtain ⟨acc1, w1, h1, h⟩ := bind_eq_ok h
    obtain ⟨b, w2, h2, h1⟩ := bind_eq_ok h1
    cases h1
    obtain ⟨i1, i2, i3, i4, i5, i6⟩ := ih _ _ _ _ h
    rcases consider_ok c existing comps r w w1 b h2 with ⟨rfl, rfl, hno⟩ | ⟨rfl, id0, d0, wm, hr, hk0, hne0, hcr, hm, hw1⟩
    · refine ⟨i1, i2, i3, ?_, ?_, ?_⟩
      · intro id hne
        rw [i4 id hne]
        constructor
        · rintro (h | ⟨hk, info, hm, hc⟩)
          · exact Or.inl h
          · exact Or.inr ⟨hk, info, List.mem_cons_of_mem _ hm, hc⟩
        · rintro (h | ⟨hk, info, hm, hc⟩)
          · exact Or.inl h
          · rcases List.mem_cons.mp hm with hm | hm
            · subst hm
              exact absurd hc (hno id rfl hk hne)
            · exact Or.inr ⟨hk, info, hm, hc⟩
      · intro id d hne hg
        rcases i5 id d hne hg with h | ⟨a, b, e, f⟩
        · exact Or.inl h
        · exact Or.inr ⟨a, b, e, f.cons r⟩
      · rw [i6, Bool.or_false]
        constructor
        · rintro (h | ⟨id, info, hne, hk, hm, hc⟩)
          · exact Or.inl h
          · exact Or.inr ⟨id, info, hne, hk, List.mem_cons_of_mem _ hm, hc⟩
        · rintro (h | ⟨id, info, hne, hk, hm, hc⟩)
          · exact Or.inl h
          · rcases List.mem_cons.mp hm with hm | hm
            · subst hm
              exact absurd hc (hno id rfl hk hne)
            · exact Or.inr ⟨id, info, hne, hk, hm, hc⟩
    · have hr0 : r = (some id0, r.2) := by rw [← hr]
      have hkids : w1.kids = Dict.set w.kids id0 d0 := by rw [hw1]
      have hb : w1.born = w.born + 1 := by rw [hw1]; exact hm.born
      have hu := hm.uid
      refine ⟨?_, by omega, ?_, ?_, ?_, ?_⟩
      · intro hw
        refine i1 ?_
        rw [hkids]
        exact Dict.WF_set hw _ _
      · intro id hin
        rw [i3 id hin, hkids, Dict.get?_set_ne _ _ (fun (e : id0 = id) => hne0 (by rw [e]; exact hin))]
      · intro id hne
        rw [i4 id hne, hkids, Dict.mem_keys_set]
        constructor
        · rintro ((rfl | h) | ⟨hk, info, hm, hc⟩)
          · exact Or.inr ⟨hk0, r.2, by rw [hr0]; exact List.mem_cons_self, hcr⟩
          · exact Or.inl h
          · exact Or.inr ⟨hk, info, List.mem_cons_of_mem _ hm, hc⟩
        · rintro (h | ⟨hk, info, hm, hc⟩)
          · exact Or.inl (Or.inr h)
          · rcases List.mem_cons.mp hm with hm | hm
            · rw [← hm] at hr
              cases hr
              exact Or.inl (Or.inl rfl)
            · exact Or.inr ⟨hk, info, hm, hc⟩
      · intro id d hne hg
        rcases i5 id d hne hg with hg' | ⟨a, b, e, f⟩
        · rw [hkids, Dict.get?_set] at hg'
          split at hg'
          · rename_i e
            cases hg'
            subst e
            refine Or.inr ⟨by omega, by omega, hm.id, ?_, ?_⟩
            · intro hc
              exact ⟨r.2, by rw [hr0]; exact List.mem_cons_self, hm.cam hc⟩
            · intro hc
              obtain ⟨x, y⟩ := hm.sensor hc
              exact ⟨⟨r.2, by rw [hr0]; exact List.mem_cons_self, x⟩, y⟩
          · exact Or.inl hg'
        · exact Or.inr ⟨by omega, b, e, f.cons r⟩
      · rw [i6, Bool.or_true]
        constructor
        · intro _
          exact Or.inr ⟨id0, r.2, hne0, hk0, by rw [hr0]; exact List.mem_cons_self, hcr⟩
        · exact fun _ => Or.inl rfl

end Kasa.CamDevice
