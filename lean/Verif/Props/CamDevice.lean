import Verif.Lemmas.CamDevice
/-!
# C79: the children of a camera hub
-/

namespace Kasa.CamDevice

open PyM SmartDevice

/-- What is said of the children after an update, given what they were and what the hub reported. -/
structure Follows (c : CamEnv) (comps : List (String × Json)) (rs : List (Option String × Json)) (w w' : World) : Prop where
  /-- They are exactly the children that are reported and have components, and were known or are of a kind the library knows. -/
  exact : ∀ id, id ∈ Dict.keys w'.kids ↔
    Listed comps rs id ∧ (id ∈ Dict.keys w.kids ∨ ∃ info, (some id, info) ∈ rs ∧ Supported info)
  /-- Those that were known are the same objects. -/
  kept : ∀ id d, Dict.get? w.kids id = some d → Listed comps rs id → ∃ d', Dict.get? w'.kids id = some d' ∧ d'.uid = d.uid ∧ d'.cam = d.cam
  /-- The others are objects that did not exist before: cameras, or sensors and the like that have answered their first query. -/
  created : ∀ id d', Dict.get? w'.kids id = some d' → id ∉ Dict.keys w.kids → w.born ≤ d'.uid ∧ d'.uid < w'.born ∧ d'.id = some id ∧
    (d'.cam = true → ∃ info, (some id, info) ∈ rs ∧ IsCamera info) ∧
    (d'.cam = false → (∃ info, (some id, info) ∈ rs ∧ IsSensor info) ∧ ∃ n r, c.base.answer n (some id) [("get_connect_cloud_state", .null)] = .ok r)
  /-- Each has the info last reported for it, a camera under the library's names. -/
  info : ∀ id d', Dict.get? w'.kids id = some d' → ∃ i, lastReported rs id = some i ∧
    (d'.cam = false → d'.info = i) ∧ (d'.cam = true → CameraInfo i d'.info)
  wf : Dict.WF w'.kids

theorem lastReported_mem (rs : List (Option String × Json)) (id : String) (i : Json) (h : lastReported rs id = some i) : (some id, i) ∈ rs := by
  unfold lastReported at h
  cases hg : (rs.filter (fun r => r.1 = some id)).getLast? with
  | none => rw [hg] at h; cases h
  | some x =>
    rw [hg] at h
    cases h
    obtain ⟨h1, h2⟩ := List.mem_filter.mp (List.mem_of_getLast? hg)
    have : x = (some id, x.2) := by
      rw [← of_decide_eq_true h2]
    rw [← this]
    exact h1

theorem lastReported_some (rs : List (Option String × Json)) (id : String) (h : ∃ info, (some id, info) ∈ rs) : ∃ i, lastReported rs id = some i := by
  obtain ⟨info, hm⟩ := h
  have : (some id, info) ∈ rs.filter (fun r => r.1 = some id) := List.mem_filter.mpr ⟨hm, by simp⟩
  unfold lastReported
  cases hg : (rs.filter (fun r => r.1 = some id)).getLast? with
  | none =>
    rw [List.getLast?_eq_none_iff] at hg
    rw [hg] at this
    cases this
  | some x => exact ⟨x.2, rfl⟩

/-- The step that compares the lists. -/
theorem lists_follow (c : CamEnv) (w w' : World) (changed : Bool) (hwf : Dict.WF w.kids) (h : updateChildrenInfo c w = (.ok changed, w')) :
    (childList w.dev.last = none → w' = w ∧ changed = false) ∧
    (∀ v comps rs, childList w.dev.last = some v → componentsById (Dict.get? w.dev.last "getChildDeviceComponentList") = .ok comps →
      reports v = .ok rs → Follows c comps rs w w' ∧ (changed = true ↔ ∃ id, ¬ (id ∈ Dict.keys w'.kids ↔ id ∈ Dict.keys w.kids))) := by
  unfold updateChildrenInfo at h
  refine ⟨?_, ?_⟩
  · intro hl
    rw [hl] at h
    cases h
    exact ⟨rfl, rfl⟩
  · intro v comps rs hl hc hr
    rw [hl] at h
    simp only at h
    rw [hc, hr, bind_ok (lift_ok_apply comps w), bind_ok (lift_ok_apply rs w)] at h
    obtain ⟨ch, w2, h2, h⟩ := bind_eq_ok h
    cases h
    unfold createDelete at h2
    obtain ⟨ch1, w1, h1, h2⟩ := bind_eq_ok h2
    obtain ⟨i1, i2, i3, i4, i5, i6⟩ := considerAll c _ comps rs _ _ _ _ h1
    cases h2
    have hw1 := i1 hwf
    obtain ⟨e1, e2⟩ := eraseAll_get ((Dict.keys w.kids).filter (fun id => !(presentIds comps rs).contains id)) w1.kids hw1
    have hrem : ∀ id, id ∈ (Dict.keys w.kids).filter (fun id => !(presentIds comps rs).contains id) ↔ id ∈ Dict.keys w.kids ∧ ¬ Listed comps rs id := by
      intro id
      rw [List.mem_filter, ← mem_present]
      simp
    have hp := pushAll_rest rs { w1 with kids := ((Dict.keys w.kids).filter (fun id => !(presentIds comps rs).contains id)).foldl (fun k id => Dict.erase k id) w1.kids }
    have hget := fun id => pushAll_get rs { w1 with kids := ((Dict.keys w.kids).filter (fun id => !(presentIds comps rs).contains id)).foldl (fun k id => Dict.erase k id) w1.kids } id
    have hwf' := pushAll_wf rs { w1 with kids := ((Dict.keys w.kids).filter (fun id => !(presentIds comps rs).contains id)).foldl (fun k id => Dict.erase k id) w1.kids } e1
    simp only at hp hget hwf'
    simp only
    generalize hwp : rs.foldl pushInfo { w1 with kids := ((Dict.keys w.kids).filter (fun id => !(presentIds comps rs).contains id)).foldl (fun k id => Dict.erase k id) w1.kids } = w' at hp hget hwf'
    have hmem : ∀ {d : List (String × Dev)} {id : String}, id ∈ Dict.keys d ↔ ∃ x, Dict.get? d id = some x := by
      intro d id
      rw [← Dict.has_iff]
      unfold Dict.has
      exact Option.isSome_iff_exists
    have hkeys : ∀ id, id ∈ Dict.keys w'.kids ↔ id ∈ Dict.keys w1.kids ∧ ¬ (id ∈ Dict.keys w.kids ∧ ¬ Listed comps rs id) := by
      intro id
      rw [hmem, hget id, e2 id]
      split
      · rename_i hc
        rw [hrem id] at hc
        constructor
        · rintro ⟨x, hx⟩
          cases hx
        · rintro ⟨_, hx⟩
          exact absurd hc hx
      · rename_i hc
        rw [hrem id] at hc
        constructor
        · rintro ⟨x, hx⟩
          cases hg : Dict.get? w1.kids id with
          | none => rw [hg] at hx; cases hx
          | some y => exact ⟨hmem.mpr ⟨y, hg⟩, hc⟩
        · rintro ⟨hx, _⟩
          obtain ⟨y, hy⟩ := hmem.mp hx
          exact ⟨_, by rw [hy]; rfl⟩
    have hexact : ∀ id, id ∈ Dict.keys w'.kids ↔
        Listed comps rs id ∧ (id ∈ Dict.keys w.kids ∨ ∃ info, (some id, info) ∈ rs ∧ Supported info) := by
      intro id
      rw [hkeys id]
      by_cases hin : id ∈ Dict.keys w.kids
      · have : id ∈ Dict.keys w1.kids := by
          rw [hmem, i3 id hin]
          exact hmem.mp hin
        constructor
        · rintro ⟨_, hnot⟩
          exact ⟨Classical.byContradiction fun hl => hnot ⟨hin, hl⟩, Or.inl hin⟩
        · rintro ⟨hl, _⟩
          exact ⟨this, fun h => h.2 hl⟩
      · rw [i4 id hin]
        constructor
        · rintro ⟨hx | ⟨hk, info, hm, hcr⟩, _⟩
          · exact absurd hx hin
          · exact ⟨⟨hk, info, hm⟩, Or.inr ⟨info, hm, hcr⟩⟩
        · rintro ⟨⟨hk, _⟩, hx | ⟨info, hm, hcr⟩⟩
          · exact absurd hx hin
          · exact ⟨Or.inr ⟨hk, info, hm, hcr⟩, fun h => hin h.1⟩
    have hinv : ∀ id d', Dict.get? w'.kids id = some d' → ∃ d, Dict.get? w1.kids id = some d ∧ d' = withInfo rs id d := by
      intro id d' hg
      rw [hget id, e2 id] at hg
      split at hg
      · cases hg
      · cases hg1 : Dict.get? w1.kids id with
        | none => rw [hg1] at hg; cases hg
        | some d =>
          rw [hg1] at hg
          cases hg
          exact ⟨d, rfl, rfl⟩
    have hwith : ∀ id d, (withInfo rs id d).uid = d.uid ∧ (withInfo rs id d).id = d.id ∧ (withInfo rs id d).cam = d.cam := by
      intro id d
      unfold withInfo
      split <;> exact ⟨rfl, rfl, rfl⟩
    refine ⟨⟨hexact, ?_, ?_, ?_, hwf'⟩, ?_⟩
    · intro id d hg hl
      have hin := hmem.mpr ⟨d, hg⟩
      refine ⟨withInfo rs id d, ?_, (hwith id d).1, (hwith id d).2.2⟩
      rw [hget id, e2 id, if_neg (by rw [hrem]; exact fun h => h.2 hl), i3 id hin, hg]
      rfl
    · intro id d' hg hnew
      obtain ⟨d, hg1, rfl⟩ := hinv id d' hg
      rcases i5 id d hnew hg1 with hx | ⟨a, b, e, f⟩
      · exact absurd (hmem.mpr ⟨d, hx⟩) hnew
      · rw [(hwith id d).1, (hwith id d).2.1, (hwith id d).2.2]
        exact ⟨a, by rw [hp.2.2]; exact b, e, f.1, f.2⟩
    · intro id d' hg
      have hl := ((hexact id).mp (hmem.mpr ⟨d', hg⟩)).1
      obtain ⟨i, hi⟩ := lastReported_some rs id hl.2
      obtain ⟨d, _, rfl⟩ := hinv id d' hg
      refine ⟨i, hi, ?_, ?_⟩
      · intro hcam
        rw [(hwith id d).2.2] at hcam
        unfold withInfo
        rw [hi]
        simp only [stateOf, hcam]
        rfl
      · intro hcam
        rw [(hwith id d).2.2] at hcam
        unfold withInfo
        rw [hi]
        simp only [stateOf, hcam]
        exact mapChildInfo_spec i (reports_obj v rs hr _ (lastReported_mem rs id i hi))
    · rw [Bool.or_eq_true, i6]
      constructor
      · rintro ((hx | ⟨id, info, hne, hk, hm, hcr⟩) | hx)
        · cases hx
        · refine ⟨id, fun hiff => hne (hiff.mp ?_)⟩
          exact (hexact id).mpr ⟨⟨hk, info, hm⟩, Or.inr ⟨info, hm, hcr⟩⟩
        · cases hf : (Dict.keys w.kids).filter (fun id => !(presentIds comps rs).contains id) with
          | nil => rw [hf] at hx; cases hx
          | cons id rest =>
            have := (hrem id).mp (by rw [hf]; exact List.mem_cons_self)
            refine ⟨id, fun hiff => this.2 ?_⟩
            exact ((hexact id).mp (hiff.mpr this.1)).1
      · rintro ⟨id, hne⟩
        by_cases hin : id ∈ Dict.keys w.kids
        · right
          have hnl : ¬ Listed comps rs id := fun hl => hne ⟨fun _ => hin, fun _ => (hexact id).mpr ⟨hl, Or.inl hin⟩⟩
          have := (hrem id).mpr ⟨hin, hnl⟩
          cases hf : (Dict.keys w.kids).filter (fun id => !(presentIds comps rs).contains id) with
          | nil => rw [hf] at this; cases this
          | cons a b => rfl
        · left
          right
          have : id ∈ Dict.keys w'.kids := Classical.byContradiction fun h => hne ⟨fun h' => absurd h' h, fun h' => absurd h' hin⟩
          obtain ⟨hl, hx | ⟨info, hm, hcr⟩⟩ := (hexact id).mp this
          · exact absurd hx hin
          · exact ⟨id, info, hin, hl.1, hm, hcr⟩

theorem update_parts (c : CamEnv) (credentials kids : Bool) (w w' : World) (h : update c credentials kids w = (.ok (), w')) :
    ∃ w1 w2 w3 changed, onDev (ownUpdate c) w = (.ok (), w1) ∧ updateChildrenInfo c w1 = (.ok changed, w2) ∧
      updateKidsIf c (changed || kids) w2 = (.ok (), w3) ∧ onDev initFeatures w3 = (.ok (), w') := by
  have h0 : credentials = true := by
    cases credentials with
    | true => rfl
    | false => cases h
  subst h0
  have hu : update c true kids w = (onDev (ownUpdate c) >>= fun _ => updateChildrenInfo c >>= fun changed =>
      updateKidsIf c (changed || kids) >>= fun _ => onDev initFeatures) w := rfl
  rw [hu] at h
  obtain ⟨_, w1, h1, h⟩ := bind_eq_ok h
  obtain ⟨ch, w2, h2, h⟩ := bind_eq_ok h
  obtain ⟨_, w3, h3, h⟩ := bind_eq_ok h
  exact ⟨w1, w2, w3, ch, h1, h2, h3, h⟩

/-- C79: after an update that ended normally, the children follow the list that the hub holds; if it holds none, they are the same
objects as before. -/
theorem C79_children (c : CamEnv) (credentials kids : Bool) (w w' : World) (hwf : Dict.WF w.kids) (h : update c credentials kids w = (.ok (), w')) :
    (∀ v comps rs, childList w'.dev.last = some v → componentsById (Dict.get? w'.dev.last "getChildDeviceComponentList") = .ok comps →
      reports v = .ok rs → Follows c comps rs w w') ∧
    (childList w'.dev.last = none → SameKids w w') := by
  obtain ⟨w1, w2, w3, ch, h1, h2, h3, h4⟩ := update_parts c credentials kids w w' h
  have s1 := kids_onDev (ownUpdate c) w
  rw [h1] at s1
  have s3 := kids_update c (ch || kids) w2
  rw [h3] at s3
  have s4 := kids_onDev initFeatures w3
  rw [h4] at s4
  have r2 := rest_childrenInfo c w1
  rw [h2] at r2
  have r3 := rest_updateKids c (ch || kids) w2
  rw [h3] at r3
  have r4 := rest_features w3
  rw [h4] at r4
  have hlast : w'.dev.last = w1.dev.last := r4.last.trans (r3.last.trans r2.last)
  have hkids1 : w1.kids = w.kids := (congrArg (fun x : Except Exc Unit × World => x.2.kids) h1).symm
  have hborn1 : w1.born = w.born := s1.born
  have s := SameKids.trans _ _ _ s3 s4
  obtain ⟨c1, c2⟩ := lists_follow c w1 w2 ch (by rw [hkids1]; exact hwf) h2
  rw [hlast]
  have hback : ∀ id d', Dict.get? w'.kids id = some d' → ∃ d, Dict.get? w2.kids id = some d ∧ SameChild d d' := by
    intro id d' hg
    have hk : id ∈ Dict.keys w2.kids := by
      rw [← s.keys]
      exact List.mem_map_of_mem (f := Prod.fst) (Dict.mem_of_get? hg)
    cases hg2 : Dict.get? w2.kids id with
    | none => exact absurd hk (Dict.get?_eq_none_iff.mp hg2)
    | some d =>
      obtain ⟨d'', hg'', hs⟩ := s.kid id d hg2
      rw [hg] at hg''
      cases hg''
      exact ⟨d, rfl, hs⟩
  refine ⟨?_, ?_⟩
  · intro v comps rs a b e
    obtain ⟨hf, _⟩ := c2 v comps rs a b e
    refine ⟨?_, ?_, ?_, ?_, ?_⟩
    · intro id
      rw [s.keys, hf.exact id, hkids1]
    · intro id d hg hl
      obtain ⟨d', hg', hu', hc'⟩ := hf.kept id d (by rw [hkids1]; exact hg) hl
      obtain ⟨d'', hg'', hs⟩ := s.kid id d' hg'
      exact ⟨d'', hg'', hs.uid.trans hu', hs.cam.trans hc'⟩
    · intro id d' hg hn
      obtain ⟨d, hg2, hs⟩ := hback id d' hg
      have := hf.created id d hg2 (by rw [hkids1]; exact hn)
      rw [hs.uid, hs.id, hs.cam, s.born, ← hborn1]
      exact this
    · intro id d' hg
      obtain ⟨d, hg2, hs⟩ := hback id d' hg
      rw [hs.info, hs.cam]
      exact hf.info id d hg2
    · unfold Dict.WF
      rw [s.keys]
      exact hf.wf
  · intro hn
    have := (c1 hn).1
    subst this
    exact SameKids.trans _ _ _ s1 s

/-! ## A child that does not answer -/

theorem createSmart_kids (c : CamEnv) (id : String) (info raw : Json) (last : Answers) (w : World) : (createSmart c id info raw last w).2.kids = w.kids := by
  unfold createSmart
  split
  · rfl
  · simp only
    split <;> rfl

theorem camChild_kids (c : CamEnv) (id : String) (info raw : Json) (w : World) : (camChild c id info raw w).2.kids = w.kids := by
  unfold camChild
  split
  · rfl
  · simp only
    split <;> rfl

theorem askFirst_kids (c : CamEnv) (id : String) (w : World) : (askFirst c id w).2.kids = w.kids := by
  unfold askFirst
  simp only
  split <;> rfl

theorem tryCreate_kids (c : CamEnv) (id : String) (info raw : Json) : Rel (fun a b : World => b.kids = a.kids) (tryCreate c id info raw) := by
  have htr : ∀ a b d : World, b.kids = a.kids → d.kids = b.kids → d.kids = a.kids := fun _ _ _ h1 h2 => h2.trans h1
  unfold tryCreate
  split
  · exact Rel.pure (R := fun a b : World => b.kids = a.kids) (fun _ => rfl) _
  · split
    · exact Rel.bind htr (Rel.bind htr (askFirst_kids c id) fun r => createSmart_kids c id info raw r) fun _ => Rel.pure (R := fun a b : World => b.kids = a.kids) (fun _ => rfl) _
    · split
      · exact Rel.bind htr (camChild_kids c id info raw) fun _ => Rel.pure (R := fun a b : World => b.kids = a.kids) (fun _ => rfl) _
      · exact Rel.pure (R := fun a b : World => b.kids = a.kids) (fun _ => rfl) _

/-- The queries to the child all fail. -/
def Silent (c : CamEnv) (id : String) : Prop := ∀ n req, ∃ e, c.base.answer n (some id) req = .error e

theorem tryCreate_silent (c : CamEnv) (id : String) (info raw : Json) (hs : Silent c id) (hi : IsSensor info) (w : World) :
    ∃ e w', tryCreate c id info raw w = (.error e, w') := by
  cases h : tryCreate c id info raw w with
  | mk r w' =>
    cases r with
    | error e => exact ⟨e, w', rfl⟩
    | ok o =>
      exfalso
      rcases tryCreate_ok c id info raw w w' o h with ⟨_, _, hno⟩ | ⟨d, _, hm, _⟩
      · exact hno (Or.inr hi)
      · cases hcam : d.cam with
        | true =>
          have hc := hm.cam hcam
          obtain ⟨cat, hmem, hcat⟩ := hi
          unfold IsCamera at hc
          rw [hcat] at hc
          cases hc
          revert hmem
          decide
        | false =>
          obtain ⟨_, n, r, hr⟩ := hm.sensor hcam
          obtain ⟨e, he⟩ := hs n [("get_connect_cloud_state", .null)]
          rw [he] at hr
          cases hr

theorem consider_silent (c : CamEnv) (existing : List String) (comps : List (String × Json)) (r : Option String × Json) (id : String)
    (hs : Silent c id) (hi : r.1 = some id → IsSensor r.2) (w : World) (hn : id ∉ Dict.keys w.kids) :
    id ∉ Dict.keys (considerChild c existing comps r w).2.kids := by
  unfold considerChild
  split
  · exact hn
  · rename_i id0 hr
    split
    · exact hn
    · rename_i raw hg
      split
      · exact hn
      · have hk := tryCreate_kids c id0 r.2 raw w
        rw [bind_apply]
        cases ht : tryCreate c id0 r.2 raw w with
        | mk x w1 =>
          rw [ht] at hk
          simp only at hk
          cases x with
          | error e =>
            simp only
            rw [hk]
            exact hn
          | ok o =>
            cases o with
            | none =>
              simp only [keepChild, pure_apply]
              rw [hk]
              exact hn
            | some d =>
              change id ∉ Dict.keys (Dict.set w1.kids id0 d)
              rw [Dict.mem_keys_set, hk]
              rintro (e | h)
              · subst e
                obtain ⟨e, w', he⟩ := tryCreate_silent c id r.2 raw hs (hi hr) w
                rw [ht] at he
                cases he
              · exact hn h

theorem considerAll_silent (c : CamEnv) (existing : List String) (comps : List (String × Json)) (id : String) (hs : Silent c id)
    (rs : List (Option String × Json)) (hi : ∀ info, (some id, info) ∈ rs → IsSensor info) : ∀ (acc : Bool) (w : World), id ∉ Dict.keys w.kids →
    id ∉ Dict.keys (foldM (fun changed r => considerChild c existing comps r >>= fun b => pure (changed || b)) acc rs w).2.kids := by
  induction rs with
  | nil => exact fun acc w hn => hn
  | cons r rs ih =>
    intro acc w hn
    have h1 := consider_silent c existing comps r id hs (fun e => hi r.2 (by rw [← e]; exact List.mem_cons_self)) w hn
    rw [foldM_cons, bind_apply, bind_apply]
    cases hx : considerChild c existing comps r w with
    | mk x w1 =>
      rw [hx] at h1
      cases x with
      | error e => exact h1
      | ok b => exact ih (fun info hm => hi info (List.mem_cons_of_mem _ hm)) _ w1 h1

theorem pushAll_keys (rs : List (Option String × Json)) (w : World) (id : String) (hn : id ∉ Dict.keys w.kids) : id ∉ Dict.keys (rs.foldl pushInfo w).kids := by
  have h := pushAll_get rs w id
  rw [Dict.get?_eq_none_iff.mpr hn] at h
  exact Dict.get?_eq_none_iff.mp h

theorem erase_keys (x : String) (d : List (String × Dev)) (id : String) (h : id ∈ Dict.keys (Dict.erase d x)) : id ∈ Dict.keys d := by
  induction d with
  | nil => exact h
  | cons p d ih =>
    unfold Dict.erase at h
    split at h
    · exact List.mem_cons_of_mem _ h
    · rcases List.mem_cons.mp h with e | h
      · exact e ▸ List.mem_cons_self
      · exact List.mem_cons_of_mem _ (ih h)

theorem eraseAll_keys (ids : List String) : ∀ (d : List (String × Dev)) (id : String), id ∉ Dict.keys d → id ∉ Dict.keys (ids.foldl (fun k i => Dict.erase k i) d) := by
  induction ids with
  | nil => exact fun d id h => h
  | cons x ids ih =>
    intro d id h
    exact ih _ id fun hm => h (erase_keys x d id hm)

theorem info_silent (c : CamEnv) (id : String) (hs : Silent c id) (w : World) (hn : id ∉ Dict.keys w.kids)
    (hi : ∀ v rs info, childList w.dev.last = some v → reports v = .ok rs → (some id, info) ∈ rs → IsSensor info) :
    id ∉ Dict.keys (updateChildrenInfo c w).2.kids := by
  unfold updateChildrenInfo
  cases hl : childList w.dev.last with
  | none => exact hn
  | some v =>
    simp only
    cases hc : componentsById (Dict.get? w.dev.last "getChildDeviceComponentList") with
    | error e => exact hn
    | ok comps =>
      rw [bind_ok (lift_ok_apply comps w)]
      cases hr : reports v with
      | error e => exact hn
      | ok rs =>
        rw [bind_ok (lift_ok_apply rs w)]
        have h1 := considerAll_silent c (Dict.keys w.kids) comps id hs rs (fun info hm => hi v rs info hl hr hm) false w hn
        have h2 : id ∉ Dict.keys (createDelete c comps rs w).2.kids := by
          unfold createDelete
          simp only
          rw [bind_apply]
          cases hf : foldM (fun changed r => considerChild c (Dict.keys w.kids) comps r >>= fun b => pure (changed || b)) false rs w with
          | mk x w1 =>
            rw [hf] at h1
            cases x with
            | error e => exact h1
            | ok b => exact eraseAll_keys _ _ id h1
        rw [bind_apply]
        cases hd : createDelete c comps rs w with
        | mk x w1 =>
          rw [hd] at h2
          cases x with
          | error e => exact h2
          | ok b => exact pushAll_keys rs w1 id h2

/-- C79 is false of a child that does not answer: when a hub reports a sensor that was not known, with components, and the queries to
it fail, the update of the hub fails, whatever else the hub and its other children answer, and the sensor does not become a child, so
that the next update fails as well. -/
theorem C79_silent_child (c : CamEnv) (credentials kids : Bool) (w : World) (hwf : Dict.WF w.kids) (id : String) (hs : Silent c id)
    (hnew : id ∉ Dict.keys w.kids) (v : Json) (comps : List (String × Json)) (rs : List (Option String × Json))
    (hv : childList (update c credentials kids w).2.dev.last = some v)
    (hcomps : componentsById (Dict.get? (update c credentials kids w).2.dev.last "getChildDeviceComponentList") = .ok comps)
    (hrs : reports v = .ok rs) (hlisted : Listed comps rs id) (hsensor : ∀ info, (some id, info) ∈ rs → IsSensor info) :
    (update c credentials kids w).1 ≠ .ok () ∧ id ∉ Dict.keys (update c credentials kids w).2.kids := by
  have hfail : (update c credentials kids w).1 ≠ .ok () := by
    intro hok
    cases hu : update c credentials kids w with
    | mk r w' =>
      rw [hu] at hok hv hcomps
      simp only at hok hv hcomps
      subst hok
      have hf := (C79_children c credentials kids w w' hwf hu).1 v comps rs hv hcomps hrs
      obtain ⟨info, hm⟩ := hlisted.2
      have hin : id ∈ Dict.keys w'.kids := (hf.exact id).mpr ⟨hlisted, Or.inr ⟨info, hm, Or.inr (hsensor info hm)⟩⟩
      cases hg : Dict.get? w'.kids id with
      | none => exact absurd hin (Dict.get?_eq_none_iff.mp hg)
      | some d =>
        obtain ⟨_, _, _, h1, h2⟩ := hf.created id d hg hnew
        cases hcam : d.cam with
        | true =>
          obtain ⟨i, hi, hc⟩ := h1 hcam
          obtain ⟨cat, hmem, hcat⟩ := hsensor i hi
          unfold IsCamera at hc
          rw [hcat] at hc
          cases hc
          revert hmem
          decide
        | false =>
          obtain ⟨_, n, r, hr⟩ := h2 hcam
          obtain ⟨e, he⟩ := hs n [("get_connect_cloud_state", .null)]
          rw [he] at hr
          cases hr
  refine ⟨hfail, ?_⟩
  cases credentials with
  | false => exact hnew
  | true =>
    have hu : update c true kids w = (onDev (ownUpdate c) >>= fun _ => updateChildrenInfo c >>= fun changed =>
        updateKidsIf c (changed || kids) >>= fun _ => onDev initFeatures) w := rfl
    have h1k : (onDev (ownUpdate c) w).2.kids = w.kids := rfl
    rw [hu] at hv ⊢
    rw [bind_apply] at hv ⊢
    cases h1 : onDev (ownUpdate c) w with
    | mk x w1 =>
      rw [h1] at h1k hv
      simp only at h1k hv ⊢
      have hn1 : id ∉ Dict.keys w1.kids := by rw [h1k]; exact hnew
      cases x with
      | error e => exact hn1
      | ok u =>
        simp only at hv ⊢
        have hrest := Rel.bind Rest.trans (rest_childrenInfo c) (fun ch => Rel.bind Rest.trans (rest_updateKids c (ch || kids)) fun _ => rest_features) w1
        have hlast := hrest.last
        rw [hlast] at hv
        have h2 := info_silent c id hs w1 hn1 (fun v' rs' info h1 h2 hm => by
          rw [hv] at h1
          cases h1
          rw [hrs] at h2
          cases h2
          exact hsensor info hm)
        rw [bind_apply]
        cases hx : updateChildrenInfo c w1 with
        | mk x w2 =>
          rw [hx] at h2
          cases x with
          | error e => exact h2
          | ok ch =>
            simp only at h2 ⊢
            have s := Rel.bind SameKids.trans (kids_update c (ch || kids)) (fun _ => kids_onDev initFeatures) w2
            rw [s.keys]
            exact h2

/-! ## The info of the device itself -/

theorem infoFrom_own (resp : Answers) (i : Json) (h : infoFrom resp = .ok i) : ∃ said, Dict.get? resp "getDeviceInfo" = some (.value said) ∧ OwnInfo said i := by
  unfold infoFrom tryGet at h
  cases hg : Dict.get? resp "getDeviceInfo" with
  | none => rw [hg] at h; cases h
  | some e =>
    rw [hg] at h
    cases e with
    | error c => cases h
    | value said =>
      refine ⟨said, rfl, ?_⟩
      simp only at h
      split at h
      · cases h
      · cases said with
        | obj ps =>
          cases hd : Dict.get? ps "device_info" with
          | none => simp [bind, Except.bind, Ops.item, hd] at h
          | some di =>
            cases di with
            | obj qs =>
              cases hb : Dict.get? qs "basic_info" with
              | none => simp [bind, Except.bind, Ops.item, hd, mapInfo, hb] at h
              | some bi =>
                cases bi with
                | obj bs =>
                  simp [bind, Except.bind, Ops.item, hd, mapInfo, hb, pure, Except.pure] at h
                  subst h
                  obtain ⟨h1, h2, h3⟩ := rename_spec DeviceInfo.mappedKey bs [] Dict.WF_nil
                  refine ⟨bs, _, ?_, rfl, h1, ?_, ?_⟩
                  · simp [Json.get?, hd, hb]
                  · intro k v hm
                    exact ⟨_, mappedKey_called k, (h2 _).mpr (Or.inr ⟨_, hm, rfl⟩)⟩
                  · intro k' v hm
                    rcases h3 k' v hm with hx | ⟨k0, hk, hm0⟩
                    · cases hx
                    · exact ⟨k0, hk ▸ mappedKey_called k0, hm0⟩
                | _ => simp [bind, Except.bind, Ops.item, hd, mapInfo, hb] at h
            | _ => simp [bind, Except.bind, Ops.item, hd, mapInfo] at h
        | _ => simp [bind, Except.bind, Ops.item] at h

theorem askEach_resp_wf (env : Env) (req : Request) : ∀ (acc : Answers) (l l' : Local) (r : Answers), Dict.WF acc →
    foldM (fun acc p => askOne env p >>= fun e => pure (Dict.set acc p.1 e)) acc req l = (.ok r, l') → Dict.WF r := by
  induction req with
  | nil =>
    intro acc l l' r hacc h
    cases h
    exact hacc
  | cons p req ih =>
    intro acc l l' r hacc h
    rw [foldM_cons] at h
    obtain ⟨a, l1, h1, h⟩ := bind_eq_ok h
    obtain ⟨e, l2, h2, h3⟩ := bind_eq_ok h1
    cases h3
    exact ih _ _ _ _ (Dict.WF_set hacc _ _) h

theorem askModules_resp_wf (env : Env) (hwf : ∀ n id req r, env.answer n id req = .ok r → Dict.WF r) (req : Request) (l l' : Local) (r : Answers)
    (h : askModules env req l = (.ok r, l')) : Dict.WF r := by
  unfold askModules tryExcept at h
  rw [ask_eq] at h
  cases ha : env.answer l.net.asked.length l.dev.id req with
  | ok r' =>
    rw [ha] at h
    cases h
    exact hwf _ _ _ _ ha
  | error e =>
    rw [ha] at h
    simp only at h
    split at h
    · exact askEach_resp_wf env req [] _ _ _ Dict.WF_nil h
    · cases h

/-- C79: after an update that ended normally, the info of the device holds what it said of itself, under the names of the library. -/
theorem C79_own_info (c : CamEnv) (hanswers : ∀ n id req r, c.base.answer n id req = .ok r → Dict.WF r) (credentials kids : Bool) (w w' : World)
    (h : update c credentials kids w = (.ok (), w')) :
    ∃ said, Dict.get? w'.dev.last "getDeviceInfo" = some (.value said) ∧ OwnInfo said w'.dev.info := by
  obtain ⟨w1, w2, w3, ch, h1, h2, h3, h4⟩ := update_parts c credentials kids w w' h
  have r2 := rest_childrenInfo c w1
  rw [h2] at r2
  have r3 := rest_updateKids c (ch || kids) w2
  rw [h3] at r3
  have r4 := rest_features w3
  rw [h4] at r4
  rw [r4.last, r3.last, r2.last, r4.info, r3.info, r2.info]
  unfold onDev at h1
  cases hm : ownUpdate c ⟨w.dev, none, w.net⟩ with
  | mk r l' =>
    rw [hm] at h1
    cases h1
    unfold ownUpdate at hm
    obtain ⟨_, _, _, hm⟩ := bind_eq_ok hm
    obtain ⟨_, _, _, hm⟩ := bind_eq_ok hm
    obtain ⟨_, _, _, hm⟩ := bind_eq_ok hm
    have hm : ∃ first t l0, modularUpdate c first t l0 = (.ok (), l') := by
      simp only at hm
      split at hm
      · obtain ⟨_, _, _, hm⟩ := bind_eq_ok hm
        exact ⟨_, _, _, hm⟩
      · exact ⟨_, _, _, hm⟩
    obtain ⟨first, t, l0, hm⟩ := hm
    unfold modularUpdate at hm
    obtain ⟨lg, _, _, hm⟩ := bind_eq_ok hm
    obtain ⟨_, _, _, hm⟩ := bind_eq_ok hm
    obtain ⟨resp, l5, h5, hm⟩ := bind_eq_ok hm
    obtain ⟨_, l6, h6, hm⟩ := bind_eq_ok hm
    obtain ⟨_, l7, h7, hm⟩ := bind_eq_ok hm
    have hs := same_postAll t (fun n => (dueNames first t lg.dev).contains n) l7
    rw [hm] at hs
    simp only at hs ⊢
    rw [hs.last, hs.info]
    have hw := askModules_resp_wf c.base hanswers _ _ _ _ h5
    cases h6
    unfold takeInfo at h7
    split at h7
    · rename_i i hi
      cases h7
      obtain ⟨said, hg, hown⟩ := infoFrom_own _ _ hi
      refine ⟨said, ?_, hown⟩
      split at hg
      · exact hg
      · simp only
        rw [Dict.get?_update hw, hg]
        rfl
    · cases h7

/-! ## Children that are known -/

/-- Two programs on a device that is not a child do the same. -/
def Agree {α : Type} (m m' : PyM Local α) : Prop := ∀ l, l.dev.id = none → m l = m' l ∧ (m l).2.dev.id = none

theorem Agree.bind {α β : Type} {m m' : PyM Local α} {f f' : α → PyM Local β} (h : Agree m m') (hf : ∀ a, Agree (f a) (f' a)) :
    Agree (m >>= f) (m' >>= f') := by
  intro l hl
  obtain ⟨h1, h2⟩ := h l hl
  rw [bind_apply, bind_apply, ← h1]
  cases hm : m l with
  | mk r l1 =>
    rw [hm] at h2
    cases r with
    | error e => exact ⟨rfl, h2⟩
    | ok a => exact hf a l1 h2

theorem Agree.refl {α : Type} {m : PyM Local α} (h : ∀ l, (m l).2.dev.id = l.dev.id) : Agree m m := fun l hl => ⟨rfl, (h l).trans hl⟩

/-- Two surroundings that differ only in what the children answer. -/
structure SameHub (c c' : CamEnv) : Prop where
  classes : c'.classes = c.classes
  clock : c'.base.clock = c.base.clock
  reg : c'.base.reg = c.base.reg
  answer : ∀ n req, c'.base.answer n none req = c.base.answer n none req

theorem agree_ask {e e' : Env} (h : ∀ n req, e'.answer n none req = e.answer n none req) (req : Request) : Agree (ask e req) (ask e' req) := by
  intro l hl
  rw [ask_eq, ask_eq, hl, h]
  exact ⟨rfl, hl⟩

theorem agree_askEach {e e' : Env} (h : ∀ n req, e'.answer n none req = e.answer n none req) (req : Request) : ∀ acc,
    Agree (foldM (fun acc p => askOne e p >>= fun x => pure (Dict.set acc p.1 x)) acc req)
      (foldM (fun acc p => askOne e' p >>= fun x => pure (Dict.set acc p.1 x)) acc req) := by
  induction req with
  | nil => exact fun acc => Agree.refl fun _ => rfl
  | cons p req ih =>
    intro acc
    have h1 : Agree (askOne e p) (askOne e' p) := by
      intro l hl
      have hb := (agree_ask h [p]).bind (fun r => (Agree.refl (m := pick p.1 r) fun l => by unfold pick; cases Dict.get? r p.1 <;> rfl)) l hl
      unfold askOne tryExcept
      rw [← hb.1]
      cases hm : (ask e [p] >>= pick p.1) l with
      | mk r l1 =>
        rw [hm] at hb
        cases r with
        | ok a => exact ⟨rfl, hb.2⟩
        | error x =>
          refine ⟨rfl, ?_⟩
          simp only
          split <;> exact hb.2
    rw [foldM_cons, foldM_cons]
    exact (h1.bind fun x => Agree.refl fun _ => rfl).bind fun a => ih a

theorem agree_askModules {e e' : Env} (h : ∀ n req, e'.answer n none req = e.answer n none req) (req : Request) :
    Agree (askModules e req) (askModules e' req) := by
  intro l hl
  have ha := agree_ask h req l hl
  unfold askModules tryExcept
  rw [← ha.1]
  cases hm : ask e req l with
  | mk r l1 =>
    rw [hm] at ha
    cases r with
    | ok a => exact ⟨rfl, ha.2⟩
    | error x =>
      simp only
      split
      · exact agree_askEach h req [] l1 ha.2
      · exact ⟨rfl, ha.2⟩

theorem agree_post (t : Rat) (had : String → Bool) : Agree (postAll t had) (postAll t had) := Agree.refl fun l => (same_postAll t had l).id

theorem takeInfo_id (first : Bool) (resp : Answers) (l : Local) : (takeInfo first resp l).2.dev.id = l.dev.id := by
  unfold takeInfo
  split <;> rfl

theorem agree_own {c c' : CamEnv} (h : SameHub c c') : Agree (ownUpdate c) (ownUpdate c') := by
  have hnow : Agree (now c.base) (now c'.base) := fun l hl => by unfold now; rw [h.clock]; exact ⟨rfl, hl⟩
  have hmod : ∀ (f : Dev → Dev), (∀ d, (f d).id = d.id) → Agree (modifyDev f) (modifyDev f) := fun f hf => Agree.refl fun l => hf l.dev
  have hlift : ∀ {α : Type} (x : Except Exc α), Agree (lift x) (lift x) := fun x => Agree.refl fun l => by cases x <;> rfl
  have hchildren : Agree (queryChildren c) (queryChildren c') := by
    intro l hl
    unfold queryChildren
    split
    · exact Agree.bind (agree_ask h.answer childQuery) (fun r => by exact hmod _ fun _ => rfl) l hl
    · exact ⟨rfl, hl⟩
  have hneg : Agree (negotiate c) (negotiate c') := by
    unfold negotiate
    refine Agree.bind (agree_ask h.answer initialQuery) fun resp => ?_
    refine Agree.bind (by exact hmod _ fun _ => rfl) fun _ => ?_
    refine Agree.bind (hlift _) fun info => ?_
    refine Agree.bind (by exact hmod _ fun _ => rfl) fun _ => ?_
    refine Agree.bind (hlift _) fun cs => ?_
    exact Agree.bind (by exact hmod _ fun _ => rfl) fun _ => hchildren
  have hinit : Agree (initModules c) (initModules c') := by
    unfold initModules
    rw [h.classes]
    refine Agree.refl fun l => ?_
    have := Rel.forEach OnlyMods.refl OnlyMods.trans (fun m => addModule_only m) c.classes l
    unfold OnlyMods at this
    rw [this]
  have hfirst : ∀ t, Agree (firstPart c t) (firstPart c' t) := fun t =>
    hneg.bind fun _ => hinit.bind fun _ => Agree.refl fun l => (handlePost_spec t (fun _ => true) "Cloud" l _ _ rfl).1.id
  have hmodular : ∀ first t, Agree (modularUpdate c first t) (modularUpdate c' first t) := by
    intro first t
    unfold modularUpdate
    refine Agree.bind (Agree.refl fun _ => rfl) fun l => ?_
    refine Agree.bind (by exact hmod _ fun _ => rfl) fun _ => ?_
    refine Agree.bind (agree_askModules h.answer _) fun resp => ?_
    refine Agree.bind (by exact hmod _ fun _ => rfl) fun _ => ?_
    exact Agree.bind (Agree.refl fun l => takeInfo_id first resp l) fun _ => agree_post t _
  unfold ownUpdate
  refine Agree.bind (Agree.refl fun _ => rfl) fun l => ?_
  refine Agree.bind hnow fun t => ?_
  refine Agree.bind (by exact hmod _ fun _ => rfl) fun _ => ?_
  simp only
  split
  · exact (hfirst t).bind fun _ => hmodular _ t
  · exact hmodular _ t

/-- A child that was updated before and whose code raises only exceptions that are caught. -/
structure Settled (d : Dev) : Prop where
  feats : d.feats ≠ []
  wf : Dict.WF d.mods
  hooks : ∀ n m v e, Dict.get? d.mods n = some m → m.cls.hook v = .error e → e.isException = true

theorem askModules_fine (env : Env) (hexc : ∀ n id req e, env.answer n id req = .error e → e.isException = true) (req : Request) (hwf : Dict.WF req) (l : Local) :
    ∃ r l', askModules env req l = (.ok r, l') ∧ l'.dev = l.dev ∧ l'.up = l.up := by
  have hd := askModules_dev env req l
  cases ha : env.answer l.net.asked.length l.dev.id req with
  | ok r =>
    have := askModules_ok env req l r ha
    rw [this] at hd
    exact ⟨r, _, this, hd⟩
  | error e =>
    obtain ⟨r, hr, _⟩ := askModules_fallback env req hwf l e ha (hexc _ _ _ _ ha) fun i p _ e' he' => hexc _ _ _ _ he'
    rw [hr] at hd
    exact ⟨r, _, hr, hd⟩

theorem childQuery_fine (env : Env) (hexc : ∀ n id req e, env.answer n id req = .error e → e.isException = true) (req : Request) (hwf : Dict.WF req) (l : Local) :
    ∃ l', childQueryModules env req l = (.ok (), l') ∧ l'.dev.mods = l.dev.mods ∧ l'.dev.feats = l.dev.feats := by
  unfold childQueryModules
  split
  · exact ⟨l, rfl, rfl, rfl⟩
  · obtain ⟨r, l', hr, hd, _⟩ := askModules_fine env hexc req hwf l
    rw [bind_ok hr]
    exact ⟨_, rfl, by simp only; rw [hd], by simp only; rw [hd]⟩

theorem post_fine (t : Rat) (had : String → Bool) (l : Local) (hs : Settled l.dev) : ∃ l', postAll t had l = (.ok (), l') ∧ l'.dev.feats = l.dev.feats := by
  cases hp : postAll t had l with
  | mk r l' =>
    obtain ⟨h1, _, h3⟩ := postAll_spec t had l hs.wf r l' hp
    cases r with
    | ok u => exact ⟨l', rfl, h1.feats⟩
    | error e =>
      obtain ⟨he, n, m, v, hg, hh⟩ := h3 e rfl
      rw [hs.hooks n m v e hg hh] at he
      cases he

theorem childUpdate_fine (c : CamEnv) (hexc : ∀ n id req e, c.base.answer n id req = .error e → e.isException = true) (l : Local) (hs : Settled l.dev) :
    (childUpdate c l).1 = .ok () := by
  have key : ∀ fin : PyM Local Unit, (∀ l : Local, l.dev.feats ≠ [] → (fin l).1 = .ok ()) →
      ((now c.base >>= fun t => getS >>= fun l => childQueryModules c.base (requestOf false t l.dev) >>= fun _ =>
        postAll t (fun n => (dueNames false t l.dev).contains n) >>= fun _ => modifyDev (fun d => { d with time := some t }) >>= fun _ => fin) l).1 = .ok () := by
    intro fin hfin
    rw [bind_ok (show now c.base l = (.ok (c.base.clock l.net.ticks), { l with net := { l.net with ticks := l.net.ticks + 1 } }) from rfl),
      bind_ok (get_apply _)]
    obtain ⟨l1, h1, hm, hf⟩ := childQuery_fine c.base hexc (requestOf false (c.base.clock l.net.ticks) l.dev) (request_wf _ _ _) { l with net := { l.net with ticks := l.net.ticks + 1 } }
    rw [bind_ok h1]
    have hs1 : Settled l1.dev := by
      refine ⟨by rw [hf]; exact hs.feats, by rw [hm]; exact hs.wf, fun n m v e hg => ?_⟩
      rw [hm] at hg
      exact hs.hooks n m v e hg
    obtain ⟨l2, h2, hf2⟩ := post_fine (c.base.clock l.net.ticks) (fun n => (dueNames false (c.base.clock l.net.ticks) l.dev).contains n) l1 hs1
    rw [bind_ok h2]
    exact hfin _ (by simp only; rw [hf2]; exact hs1.feats)
  unfold childUpdate
  split
  · exact key initFeatures fun l hl => by
      unfold initFeatures
      rw [if_neg (by simpa using hl)]
  · exact key SmartDevice.initFeatures fun l hl => by
      unfold SmartDevice.initFeatures
      rw [if_neg (by simpa using hl)]

theorem kids_fine (c : CamEnv) (hexc : ∀ n id req e, c.base.answer n id req = .error e → e.isException = true) (ids : List String) : ∀ (w : World), ids.Nodup →
    (∀ id ∈ ids, ∀ d, Dict.get? w.kids id = some d → Settled d) →
    ∃ w', forEach (fun id => onKid id (childUpdate c)) ids w = (.ok (), w') := by
  induction ids with
  | nil => exact fun w _ _ => ⟨w, rfl⟩
  | cons id ids ih =>
    intro w hnd hs
    have hn := List.nodup_cons.mp hnd
    have h1 : ∃ w1, onKid id (childUpdate c) w = (.ok (), w1) ∧ ∀ k, k ≠ id → Dict.get? w1.kids k = Dict.get? w.kids k := by
      unfold onKid
      cases hg : Dict.get? w.kids id with
      | none => exact ⟨w, rfl, fun _ _ => rfl⟩
      | some d =>
        have := childUpdate_fine c hexc ⟨d, some w.dev.last, w.net⟩ (hs id List.mem_cons_self d hg)
        simp only
        rw [this]
        exact ⟨_, rfl, fun k hk => Dict.get?_set_ne _ _ (Ne.symm hk)⟩
    obtain ⟨w1, hw1, hk⟩ := h1
    obtain ⟨w2, hw2⟩ := ih w1 hn.2 fun k hm d hg => hs k (List.mem_cons_of_mem _ hm) d (by rw [← hk k (fun e => hn.1 (e ▸ hm))]; exact hg)
    exact ⟨w2, (bind_ok hw1).trans hw2⟩

theorem tryCreate_unsupported (c : CamEnv) (id : String) (info raw : Json) (h : ¬ Supported info) (w : World) : tryCreate c id info raw w = (.ok none, w) := by
  unfold tryCreate
  cases hc : categoryOf info with
  | none => rfl
  | some cat =>
    have hcat : info.get? "category" = some (.str cat) := by
      unfold categoryOf at hc
      split at hc
      · cases hc; assumption
      · cases hc
    simp only
    split
    · rename_i hm
      exact absurd (Or.inr ⟨cat, by simpa [smartCategories, sensorsAndSwitches] using hm, hcat⟩) h
    · split
      · rename_i hm
        have : cat = "camera" := by simpa [camCategories] using hm
        subst this
        exact absurd (Or.inl hcat) h
      · rfl

theorem consider_known (c : CamEnv) (existing : List String) (comps : List (String × Json)) (r : Option String × Json)
    (h : ∀ id, r.1 = some id → id ∈ Dict.keys comps → Supported r.2 → id ∈ existing) (w : World) : considerChild c existing comps r w = (.ok false, w) := by
  unfold considerChild
  cases hr : r.1 with
  | none => rfl
  | some id =>
    simp only
    cases hg : Dict.get? comps id with
    | none => rfl
    | some raw =>
      simp only
      split
      · rfl
      · rename_i hn
        have : ¬ Supported r.2 := fun hs => hn (by simpa using h id hr (List.mem_map_of_mem (f := Prod.fst) (Dict.mem_of_get? hg)) hs)
        rw [bind_ok (tryCreate_unsupported c id r.2 raw this w)]
        rfl

theorem considerAll_known (c : CamEnv) (existing : List String) (comps : List (String × Json)) (rs : List (Option String × Json))
    (h : ∀ r ∈ rs, ∀ id, r.1 = some id → id ∈ Dict.keys comps → Supported r.2 → id ∈ existing) (w : World) : ∀ acc,
    foldM (fun changed r => considerChild c existing comps r >>= fun b => pure (changed || b)) acc rs w = (.ok acc, w) := by
  induction rs with
  | nil => exact fun acc => rfl
  | cons r rs ih =>
    intro acc
    rw [foldM_cons, bind_ok (show (considerChild c existing comps r >>= fun b => pure (acc || b)) w = (.ok acc, w) by
      rw [bind_ok (consider_known c existing comps r (h r List.mem_cons_self) w)]
      simp [pure_apply])]
    exact ih (fun r' hm => h r' (List.mem_cons_of_mem _ hm)) acc

theorem createDelete_known (c : CamEnv) (comps : List (String × Json)) (rs : List (Option String × Json)) (w : World)
    (h : ∀ r ∈ rs, ∀ id, r.1 = some id → id ∈ Dict.keys comps → Supported r.2 → id ∈ Dict.keys w.kids) :
    createDelete c comps rs w = (.ok (!((Dict.keys w.kids).filter (fun id => !(presentIds comps rs).contains id)).isEmpty),
      { w with kids := ((Dict.keys w.kids).filter (fun id => !(presentIds comps rs).contains id)).foldl (fun k id => Dict.erase k id) w.kids }) := by
  unfold createDelete
  simp only
  rw [bind_ok (considerAll_known c (Dict.keys w.kids) comps rs h w false)]
  rfl

theorem forEach_more {α : Type} (f : α → PyM Local Unit) (x : α) (xs : List α) : forEach f (x :: xs) = (f x >>= fun _ => forEach f xs) := rfl

theorem addFeatures_any (fs : List String) : ∀ (d : Dev) (n n' : Net),
    (forEach addFeature fs ⟨d, none, n⟩).1 = (forEach addFeature fs ⟨d, none, n'⟩).1 ∧
    (forEach addFeature fs ⟨d, none, n⟩).2 = ⟨(forEach addFeature fs ⟨d, none, n'⟩).2.dev, none, n⟩ := by
  induction fs with
  | nil => exact fun d n n' => ⟨rfl, rfl⟩
  | cons f fs ih =>
    intro d n n'
    rw [forEach_more, bind_apply, bind_apply]
    cases hc : d.feats.contains f with
    | true =>
      have h : ∀ n, addFeature f ⟨d, none, n⟩ = (.error .kasa, ⟨d, none, n⟩) := fun n => by unfold addFeature; rw [hc]; rfl
      rw [h, h]
      exact ⟨rfl, rfl⟩
    | false =>
      have h : ∀ n, addFeature f ⟨d, none, n⟩ = (.ok (), ⟨{ d with feats := d.feats ++ [f] }, none, n⟩) := fun n => by unfold addFeature; rw [hc]; rfl
      rw [h, h]
      exact ih _ n n'

theorem moduleFeatures_any (ns : List String) : ∀ (d : Dev) (n n' : Net),
    (forEach moduleFeatures ns ⟨d, none, n⟩).1 = (forEach moduleFeatures ns ⟨d, none, n'⟩).1 := by
  induction ns with
  | nil => exact fun d n n' => rfl
  | cons f ns ih =>
    intro d n n'
    have h : (moduleFeatures f ⟨d, none, n⟩).1 = (moduleFeatures f ⟨d, none, n'⟩).1 ∧
        (moduleFeatures f ⟨d, none, n⟩).2 = ⟨(moduleFeatures f ⟨d, none, n'⟩).2.dev, none, n⟩ ∧
        (moduleFeatures f ⟨d, none, n'⟩).2 = ⟨(moduleFeatures f ⟨d, none, n'⟩).2.dev, none, n'⟩ := by
      unfold moduleFeatures
      simp only
      cases Dict.get? d.mods f with
      | none => exact ⟨rfl, rfl, rfl⟩
      | some m =>
        simp only [viewOf]
        cases m.cls.features ⟨d.comps, d.info, d.last, none, Dict.keys d.mods⟩ with
        | error e => exact ⟨rfl, rfl, rfl⟩
        | ok fs => exact ⟨(addFeatures_any fs d n n').1, (addFeatures_any fs d n n').2, (addFeatures_any fs d n' n').2⟩
    rw [forEach_more, bind_apply, bind_apply]
    cases h1 : moduleFeatures f ⟨d, none, n⟩ with
    | mk r l =>
      cases h2 : moduleFeatures f ⟨d, none, n'⟩ with
      | mk r' l' =>
        rw [h1, h2] at h
        obtain ⟨ha, hb, hc⟩ := h
        simp only at ha hb hc
        subst ha
        rw [hb, hc]
        cases r with
        | error e => rfl
        | ok u => exact ih _ n n'

theorem initFeatures_any (d : Dev) (n n' : Net) : (initFeatures ⟨d, none, n⟩).1 = (initFeatures ⟨d, none, n'⟩).1 := by
  unfold initFeatures
  simp only
  split
  · exact moduleFeatures_any _ d n n'
  · rfl

/-- C79, for children that are known: if every child that the hub lists was updated before, then what the children answer, or that they
do not, cannot make the update of the hub fail.  Missing: children that are new, of which `C79_silent_child` shows that it is false.
`SameHub` says that the surroundings differ only in the answers of the children; interruptions are not answers. -/
theorem C79_known_partial (c c' : CamEnv) (hsame : SameHub c c') (hexc : ∀ n id req e, c'.base.answer n id req = .error e → e.isException = true)
    (credentials kids : Bool) (w : World) (hid : w.dev.id = none) (hwf : Dict.WF w.kids) (hsettled : ∀ id d, Dict.get? w.kids id = some d → Settled d)
    (hok : (update c credentials kids w).1 = .ok ()) (hknown : ∀ id ∈ Dict.keys (update c credentials kids w).2.kids, id ∈ Dict.keys w.kids) :
    (update c' credentials kids w).1 = .ok () := by
  cases hu : update c credentials kids w with
  | mk r w' =>
    rw [hu] at hok hknown
    simp only at hok hknown
    subst hok
    obtain ⟨w1, w2, w3, ch, h1, h2, h3, h4⟩ := update_parts c credentials kids w w' hu
    have hcred : credentials = true := by
      cases credentials with
      | true => rfl
      | false => cases hu
    subst hcred
    have h1' : onDev (ownUpdate c') w = (.ok (), w1) := by
      unfold onDev at h1 ⊢
      simp only at h1 ⊢
      rw [← (agree_own hsame ⟨w.dev, none, w.net⟩ hid).1]
      exact h1
    have hk1 : w1.kids = w.kids := (congrArg (fun x : Except Exc Unit × World => x.2.kids) h1).symm
    have h2' : updateChildrenInfo c' w1 = (.ok ch, w2) ∧ ∀ id d, Dict.get? w2.kids id = some d → Settled d := by
      cases hl : childList w1.dev.last with
      | none =>
        unfold updateChildrenInfo at h2 ⊢
        rw [hl] at h2 ⊢
        cases h2
        exact ⟨rfl, fun id d hg => hsettled id d (by rw [← hk1]; exact hg)⟩
      | some v =>
        cases hc : componentsById (Dict.get? w1.dev.last "getChildDeviceComponentList") with
        | error e =>
          unfold updateChildrenInfo at h2
          rw [hl] at h2
          simp only [hc] at h2
          cases h2
        | ok comps =>
          cases hr : reports v with
          | error e =>
            unfold updateChildrenInfo at h2
            rw [hl] at h2
            simp only [hc, hr] at h2
            cases h2
          | ok rs =>
            obtain ⟨hf, _⟩ := (lists_follow c w1 w2 ch (by rw [hk1]; exact hwf) h2).2 v comps rs hl hc hr
            have s := SameKids.trans _ _ _ (by have := kids_update c (ch || kids) w2; rw [h3] at this; exact this) (by have := kids_onDev initFeatures w3; rw [h4] at this; exact this)
            have hall : ∀ r ∈ rs, ∀ id, r.1 = some id → id ∈ Dict.keys comps → Supported r.2 → id ∈ Dict.keys w1.kids := by
              intro r hm id hi hcomp hsup
              have hm' : (some id, r.2) ∈ rs := by rw [← hi]; exact hm
              have : id ∈ Dict.keys w2.kids := (hf.exact id).mpr ⟨⟨hcomp, _, hm'⟩, Or.inr ⟨_, hm', hsup⟩⟩
              rw [hk1]
              exact hknown id (by rw [s.keys]; exact this)
            have hsteps : ∀ x : CamEnv, updateChildrenInfo x w1 = (.ok (!((Dict.keys w1.kids).filter (fun id => !(presentIds comps rs).contains id)).isEmpty),
                rs.foldl pushInfo { w1 with kids := ((Dict.keys w1.kids).filter (fun id => !(presentIds comps rs).contains id)).foldl (fun k id => Dict.erase k id) w1.kids }) := by
              intro x
              unfold updateChildrenInfo
              rw [hl]
              simp only
              rw [hc, hr, bind_ok (lift_ok_apply comps w1), bind_ok (lift_ok_apply rs w1), bind_ok (createDelete_known x comps rs w1 hall)]
              rfl
            refine ⟨(hsteps c').trans ((hsteps c).symm.trans h2), ?_⟩
            have hw2 := (hsteps c).symm.trans h2
            cases hw2
            intro id d hg
            rw [pushAll_get] at hg
            simp only at hg
            rw [(eraseAll_get _ w1.kids (by rw [hk1]; exact hwf)).2 id] at hg
            split at hg
            · cases hg
            · cases hg0 : Dict.get? w1.kids id with
              | none => rw [hg0] at hg; cases hg
              | some d0 =>
                rw [hg0] at hg
                cases hg
                have := hsettled id d0 (by rw [← hk1]; exact hg0)
                unfold withInfo
                split
                · exact ⟨this.feats, this.wf, this.hooks⟩
                · exact this
    obtain ⟨h2', hset⟩ := h2'
    have hw2wf : Dict.WF w2.kids := by
      have hx := lists_follow c w1 w2 ch (by rw [hk1]; exact hwf) h2
      cases hl : childList w1.dev.last with
      | none => rw [(hx.1 hl).1, hk1]; exact hwf
      | some v =>
        cases hc : componentsById (Dict.get? w1.dev.last "getChildDeviceComponentList") with
        | error e =>
          unfold updateChildrenInfo at h2
          rw [hl] at h2
          simp only [hc] at h2
          cases h2
        | ok comps =>
          cases hr : reports v with
          | error e =>
            unfold updateChildrenInfo at h2
            rw [hl] at h2
            simp only [hc, hr] at h2
            cases h2
          | ok rs => exact (hx.2 v comps rs hl hc hr).1.wf
    have h3' : ∃ w3', updateKidsIf c' (ch || kids) w2 = (.ok (), w3') := by
      unfold updateKidsIf
      split
      · exact kids_fine c' hexc _ w2 hw2wf fun id _ d hg => hset id d hg
      · exact ⟨w2, rfl⟩
    obtain ⟨w3', h3'⟩ := h3'
    have hdev : ∀ (x : CamEnv) (y : World), updateKidsIf x (ch || kids) w2 = (.ok (), y) → y.dev = w2.dev := by
      intro x y hy
      have : ∀ ids (a : World), (forEach (fun id => onKid id (childUpdate x)) ids a).2.dev = a.dev := fun ids a =>
        Rel.forEach (R := fun a b : World => b.dev = a.dev) (fun _ => rfl) (fun _ _ _ h h' => h'.trans h)
          (fun id a => by unfold onKid; split <;> rfl) ids a
      unfold updateKidsIf at hy
      split at hy
      · have := this (Dict.keys w2.kids) w2
        rw [hy] at this
        exact this
      · cases hy; rfl
    have hu' : update c' true kids w = (onDev (ownUpdate c') >>= fun _ => updateChildrenInfo c' >>= fun changed =>
        updateKidsIf c' (changed || kids) >>= fun _ => onDev initFeatures) w := rfl
    rw [hu', bind_ok h1', bind_ok h2', bind_ok h3']
    have hfeat : ∀ a b : World, a.dev = b.dev → (onDev initFeatures a).1 = (onDev initFeatures b).1 := by
      intro a b hab
      unfold onDev
      simp only
      rw [hab]
      have hnet : ∀ n n' : Net, (initFeatures ⟨b.dev, none, n⟩).1 = (initFeatures ⟨b.dev, none, n'⟩).1 := fun n n' => initFeatures_any b.dev n n'
      exact hnet _ _
    rw [hfeat w3' w3 ((hdev c' w3' h3').trans (hdev c w3 h3).symm), h4]

/-! ## Examples -/

namespace Example

def cls (name component : String) (methods : List String) (first : Bool) (interval : Nat) : Cls :=
  ⟨name, component, [], false, first, interval, fun _ => methods.map (fun m => (m, Json.null)), fun _ => .ok true, fun _ => .ok (), fun _ => .ok [name]⟩

def reg : Registry := ⟨[cls "Trigger" "trigger_log" ["get_trigger_logs"] false 5, cls "Report" "report_mode" ["get_report_mode"] false 5],
  cls "Light" "" [] false 0, cls "Thermostat" "" [] false 0⟩

def camClasses : List Cls :=
  [cls "DeviceModule" "" ["getDeviceInfo"] true 0, cls "ChildDevice" "childControl" ["getChildDeviceList", "getChildDeviceComponentList"] true 10,
   cls "Led" "led" ["getLedStatus"] false 0]

def comp (id : String) : Json := .obj [("id", .str id), ("ver_code", .num 1)]
def camComp (name : String) : Json := .obj [("name", .str name), ("version", .num 1)]
def kid (id category : String) : Json := .obj [("device_id", .str id), ("category", .str category), ("sw_ver", .str "1.2")]

/-- A camera hub with a sensor, a camera and a child of another kind. -/
def device (m : String) : Smart.Entry :=
  if m = "getDeviceInfo" then
    .value (.obj [("device_info", .obj [("basic_info", .obj [("device_type", .str "SMART.TAPOHUB"), ("device_alias", .str "hub"), ("dev_id", .str "D")])])])
  else if m = "getAppComponentList" then .value (.obj [("app_component", .obj [("app_component_list", .arr [camComp "childControl", camComp "led"])])])
  else if m = "getChildDeviceList" then
    .value (.obj [("child_device_list", .arr [kid "A" "subg.trigger.motion-sensor", kid "B" "camera", kid "C" "kettle"]), ("sum", .num 3)])
  else if m = "getChildDeviceComponentList" then
    .value (.obj [("child_component_list", .arr [.obj [("device_id", .str "A"), ("component_list", .arr [comp "trigger_log"])],
      .obj [("device_id", .str "B"), ("component_list", .arr [camComp "led"])], .obj [("device_id", .str "C"), ("component_list", .arr [])]])])
  else .value (.str m)

def env : CamEnv := ⟨⟨fun _ _ req => .ok (answers device req), fun n => 100 + 100 * n, reg, fun _ => true⟩, camClasses⟩

def once : World := (update env true true newWorld).2

example : (update env true true newWorld).1.isOk = true := by decide +kernel
example : once.kids.map (fun p => (p.1, p.2.uid, p.2.cam, Dict.keys p.2.mods)) = [("A", 1, false, ["Trigger"]), ("B", 2, true, ["DeviceModule", "Led"])] := by
  decide +kernel
example : (Dict.get? once.kids "B").map (fun d => (d.info.get? "fw_ver", d.info.get? "sw_ver")) = some (some (.str "1.2"), none) ∧
    (Dict.get? once.kids "A").map (fun d => (d.info.get? "fw_ver", d.info.get? "sw_ver")) = some (none, some (.str "1.2")) := by decide +kernel
example : once.dev.info = .obj [("device_type", .str "SMART.TAPOHUB"), ("alias", .str "hub"), ("device_id", .str "D")] := by decide +kernel

/-- It answers only requests without repeated methods, so that its answers are dicts. -/
def careful : CamEnv :=
  { env with base := { env.base with answer := fun n id req => if (Dict.keys req).Nodup then env.base.answer n id req else .error .kasa } }

theorem careful_wf (n : Nat) (id : Option String) (req : Request) (r : Answers) (h : careful.base.answer n id req = .ok r) : Dict.WF r := by
  change (if (Dict.keys req).Nodup then env.base.answer n id req else .error .kasa) = .ok r at h
  split at h
  · rename_i hn
    cases h
    exact answers_wf device req hn
  · cases h

theorem careful_ok : (update careful true true newWorld).1 = .ok () := by decide +kernel

theorem pair_ok {x : Except Exc Unit × World} (h : x.1 = .ok ()) : x = (.ok (), x.2) := by rw [← h]

example := C79_own_info careful careful_wf true true newWorld _ (pair_ok careful_ok)

/-- A sensor that does not answer: the update fails, and fails again. -/
def silent : CamEnv :=
  { env with base := { env.base with answer := fun n id req => if id = some "A" then .error .timeout else env.base.answer n id req } }

example : Silent silent "A" := fun n req => ⟨.timeout, by simp [silent]⟩
example : (update silent true true newWorld).1 = .error (.other "UnboundLocalError") ∧
    (update silent true true (update silent true true newWorld).2).1 = .error (.other "UnboundLocalError") := by decide +kernel

/-- Once it is known, it may be silent. -/
example : SameHub env silent := ⟨rfl, rfl, rfl, fun _ _ => rfl⟩
example : (update env true true once).1 = .ok () ∧ (update silent true true once).1 = .ok () ∧
    Dict.keys (update env true true once).2.kids = Dict.keys once.kids := by decide +kernel
example : once.dev.id = none ∧ Dict.WF once.kids ∧ ∀ p ∈ once.kids, p.2.feats ≠ [] ∧ Dict.WF p.2.mods := by
  unfold Dict.WF
  decide +kernel

end Example

end Kasa.CamDevice
