import Verif.Props.SmartDevice
/-!
# C60: which children an update updates
-/

namespace Kasa.SmartDevice

open PyM

theorem grows_takeInfo (first : Bool) (resp : Answers) : Rel GrowsL (takeInfo first resp) := by
  refine grows_of_net _ fun l => ?_
  unfold takeInfo
  split <;> rfl

theorem grows_modular (env : Env) (first : Bool) (t : Rat) : Rel GrowsL (modularUpdate env first t) := by
  refine Rel.bind GrowsL.trans (Rel.get GrowsL.refl) fun l => ?_
  refine Rel.bind GrowsL.trans (grows_modifyDev _) fun _ => ?_
  refine Rel.bind GrowsL.trans (grows_askModules env _) fun resp => ?_
  refine Rel.bind GrowsL.trans (grows_modifyDev _) fun _ => ?_
  exact Rel.bind GrowsL.trans (grows_takeInfo first resp) fun _ => grows_postAll t _

theorem grows_queryChildren (env : Env) : Rel GrowsL (queryChildren env) := by
  intro l
  unfold queryChildren
  split
  · exact Rel.bind GrowsL.trans (grows_ask env _) (fun _ => grows_modifyDev _) l
  · exact GrowsL.refl l

theorem grows_negotiate (env : Env) : Rel GrowsL (negotiate env) := by
  refine Rel.bind GrowsL.trans (grows_ask env _) fun resp => ?_
  refine Rel.bind GrowsL.trans (grows_modifyDev _) fun _ => ?_
  refine Rel.bind GrowsL.trans (Rel.lift GrowsL.refl _) fun _ => ?_
  refine Rel.bind GrowsL.trans (grows_modifyDev _) fun _ => ?_
  refine Rel.bind GrowsL.trans (Rel.lift GrowsL.refl _) fun _ => ?_
  exact Rel.bind GrowsL.trans (grows_modifyDev _) fun _ => grows_queryChildren env

theorem grows_first (env : Env) (t : Rat) : Rel GrowsL (firstPart env t) := by
  refine Rel.bind GrowsL.trans (grows_negotiate env) fun _ => ?_
  exact Rel.bind GrowsL.trans (grows_initModules env) fun _ => grows_of_net _ (handlePost_net t _ _)

theorem grows_own (env : Env) : Rel GrowsL (ownUpdate env) := by
  refine Rel.bind GrowsL.trans (Rel.get GrowsL.refl) fun l => ?_
  refine Rel.bind GrowsL.trans (grows_now env) fun t => ?_
  refine Rel.bind GrowsL.trans (grows_modifyDev _) fun _ => ?_
  simp only
  split
  · exact Rel.bind GrowsL.trans (grows_first env t) fun _ => grows_modular env _ t
  · exact grows_modular env _ t

/-- What a child's update leaves in its time. -/
theorem childUpdate_time (env : Env) (l l' : Local) (h : childUpdate env l = (.ok (), l')) :
    l'.dev.time = some (env.clock l.net.ticks) := by
  have h0 : childUpdate env l = (childQueryModules env (requestOf false (env.clock l.net.ticks) l.dev) >>= fun _ =>
      postAll (env.clock l.net.ticks) (fun n => (dueNames false (env.clock l.net.ticks) l.dev).contains n) >>= fun _ =>
      modifyDev (fun d => { d with time := some (env.clock l.net.ticks) }) >>= fun _ => initFeatures)
        { l with net := { l.net with ticks := l.net.ticks + 1 } } := rfl
  rw [h0] at h
  obtain ⟨_, l1, _, h⟩ := bind_eq_ok h
  obtain ⟨_, l2, _, h⟩ := bind_eq_ok h
  obtain ⟨_, l3, h3, h⟩ := bind_eq_ok h
  cases h3
  have hf := feats_init { l2 with dev := { l2.dev with time := some (env.clock l.net.ticks) } }
  rw [h] at hf
  unfold SameButFeats at hf
  simp only at hf
  rw [hf]

/-- Updated at the `k`-th reading of the clock or later. -/
def UpdatedSince (env : Env) (k : Nat) (d : Dev) : Prop := ∃ n, k ≤ n ∧ d.time = some (env.clock n)

theorem onKid_ok (env : Env) (id : String) (w w' : World) (h : onKid id (childUpdate env) w = (.ok (), w')) :
    w.net.ticks ≤ w'.net.ticks ∧ (∀ d, Dict.get? w'.kids id = some d → UpdatedSince env w.net.ticks d) ∧
    (∀ i, i ≠ id → Dict.get? w'.kids i = Dict.get? w.kids i) := by
  have hr := rest_onKid id _ (grows_childUpdate env) w
  rw [h] at hr
  refine ⟨hr.net.2, ?_⟩
  unfold onKid at h
  cases hg : Dict.get? w.kids id with
  | none =>
    rw [hg] at h
    cases h
    exact ⟨fun d hd => (by rw [hg] at hd; cases hd), fun _ _ => rfl⟩
  | some d0 =>
    rw [hg] at h
    simp only at h
    have e1 := congrArg Prod.fst h
    have e2 := congrArg Prod.snd h
    simp only at e1 e2
    subst e2
    have hc : childUpdate env ⟨d0, some w.dev.last, w.net⟩ = (.ok (), (childUpdate env ⟨d0, some w.dev.last, w.net⟩).2) := by
      rw [← e1]
    have ht := childUpdate_time env _ _ hc
    refine ⟨?_, ?_⟩
    · intro d hd
      simp only at hd
      rw [Dict.get?_set_self] at hd
      cases hd
      exact ⟨_, Nat.le_refl _, ht⟩
    · intro i hi
      simp only
      rw [Dict.get?_set_ne _ _ (Ne.symm hi)]

theorem forEach_kids (env : Env) (ids : List String) : ∀ (w w' : World),
    forEach (fun id => onKid id (childUpdate env)) ids w = (.ok (), w') →
    (∀ id ∈ ids, ∀ d, Dict.get? w'.kids id = some d → UpdatedSince env w.net.ticks d) ∧
    (∀ i, i ∉ ids → Dict.get? w'.kids i = Dict.get? w.kids i) := by
  induction ids with
  | nil =>
    intro w w' h
    cases h
    exact ⟨fun id hid => (by cases hid), fun _ _ => rfl⟩
  | cons a ids ih =>
    intro w w' h
    have h' : (onKid a (childUpdate env) >>= fun _ => forEach (fun id => onKid id (childUpdate env)) ids) w = (.ok (), w') := h
    obtain ⟨_, w1, h1, h2⟩ := bind_eq_ok h'
    obtain ⟨k1, k2, k3⟩ := onKid_ok env a w w1 h1
    obtain ⟨i1, i2⟩ := ih w1 w' h2
    refine ⟨?_, ?_⟩
    · intro id hid d hd
      by_cases hin : id ∈ ids
      · obtain ⟨n, hn, ht⟩ := i1 id hin d hd
        exact ⟨n, Nat.le_trans k1 hn, ht⟩
      · have : id = a := by
          rcases List.mem_cons.mp hid with e | e
          · exact e
          · exact absurd e hin
        subst this
        rw [i2 id hin] at hd
        exact k2 d hd
    · intro i hi
      have h1 : i ≠ a := fun e => hi (by rw [e]; exact List.mem_cons_self)
      have h2 : i ∉ ids := fun e => hi (List.mem_cons_of_mem _ e)
      rw [i2 i h2, k3 i h1]

theorem update_parts (env : Env) (credentials kids : Bool) (w w' : World) (h : update env credentials kids w = (.ok (), w')) :
    ∃ w1 w2 w3 changed, onDev (ownUpdate env) w = (.ok (), w1) ∧ updateChildrenInfo env w1 = (.ok changed, w2) ∧
      updateKidsIf env (changed || kids) w2 = (.ok (), w3) ∧ onDev initFeatures w3 = (.ok (), w') := by
  have h0 : credentials = true := by
    cases credentials with
    | true => rfl
    | false => cases h
  subst h0
  have hu : update env true kids w = (onDev (ownUpdate env) >>= fun _ => updateChildrenInfo env >>= fun changed =>
      updateKidsIf env (changed || kids) >>= fun _ => onDev initFeatures) w := rfl
  rw [hu] at h
  obtain ⟨_, w1, h1, h⟩ := bind_eq_ok h
  obtain ⟨ch, w2, h2, h⟩ := bind_eq_ok h
  obtain ⟨_, w3, h3, h⟩ := bind_eq_ok h
  exact ⟨w1, w2, w3, ch, h1, h2, h3, h⟩

/-- C60: after an update that ended normally, every child of a device that is no hub has been updated since it began; so have
those of a hub, if children were to be updated. -/
theorem C60_updated (env : Env) (credentials kids : Bool) (w w' : World) (h : update env credentials kids w = (.ok (), w'))
    (hgo : isHub w'.dev = false ∨ kids = true) (id : String) (d : Dev) (hd : Dict.get? w'.kids id = some d) :
    ∃ n, w.net.ticks ≤ n ∧ d.time = some (env.clock n) := by
  obtain ⟨w1, w2, w3, ch, h1, h2, h3, h4⟩ := update_parts env credentials kids w w' h
  have g1 := grows_own env ⟨w.dev, none, w.net⟩
  have e1 := congrArg Prod.snd h1
  change { w with dev := (ownUpdate env ⟨w.dev, none, w.net⟩).2.dev, net := (ownUpdate env ⟨w.dev, none, w.net⟩).2.net } = w1 at e1
  have t1 : w.net.ticks ≤ w1.net.ticks := by rw [← e1]; exact g1.2
  have r2 := rest_childrenInfo env w1
  rw [h2] at r2
  have r3 := rest_updateKids env (ch || kids) w2
  rw [h3] at r3
  have r4 := rest_features w3
  rw [h4] at r4
  have hk4 : w'.kids = w3.kids := by
    have e := congrArg (fun p => p.2.kids) h4
    exact e.symm
  have hhub : isHub w'.dev = isHub w2.dev := by
    unfold isHub
    rw [r4.kind, r3.kind]
  unfold updateKidsIf at h3
  have hcond : (ch || kids || !isHub w2.dev) = true := by
    rcases hgo with e | e
    · rw [← hhub, e]; simp
    · rw [e]; simp
  rw [if_pos hcond] at h3
  rw [hk4] at hd
  obtain ⟨a, b⟩ := forEach_kids env (Dict.keys w2.kids) w2 w3 h3
  have hin : id ∈ Dict.keys w2.kids := by
    by_cases hin : id ∈ Dict.keys w2.kids
    · exact hin
    · rw [b id hin, Dict.get?_eq_none_iff.mpr hin] at hd
      cases hd
  obtain ⟨n, hn, ht⟩ := a id hin d hd
  exact ⟨n, Nat.le_trans t1 (Nat.le_trans r2.net.2 hn), ht⟩

/-- Updating the children keeps which there are. -/
theorem keys_onKid (env : Env) (id : String) (w : World) : Dict.keys (onKid id (childUpdate env) w).2.kids = Dict.keys w.kids := by
  unfold onKid
  cases hg : Dict.get? w.kids id with
  | none => rfl
  | some d =>
    simp only
    have hin : id ∈ Dict.keys w.kids := List.mem_map_of_mem (f := Prod.fst) (Dict.mem_of_get? hg)
    rw [Dict.keys_set, if_pos hin]

theorem kids_updateKidsIf (env : Env) (go : Bool) (w : World) : Dict.keys (updateKidsIf env go w).2.kids = Dict.keys w.kids := by
  unfold updateKidsIf
  split
  · exact Rel.forEach (R := fun a b : World => Dict.keys b.kids = Dict.keys a.kids) (fun _ => rfl) (fun _ _ _ h1 h2 => h2.trans h1)
      (fun id w => keys_onKid env id w) _ w
  · rfl

/-- What becomes of the children that stay, and when the children are said to have changed. -/
theorem childrenInfo_ok (env : Env) (w w' : World) (changed : Bool) (hwf : Dict.WF w.kids)
    (h : updateChildrenInfo env w = (.ok changed, w')) (hsame : ∀ id, id ∈ Dict.keys w'.kids ↔ id ∈ Dict.keys w.kids) :
    changed = false ∧ ∀ id d d', Dict.get? w.kids id = some d → Dict.get? w'.kids id = some d' → d' = { d with info := d'.info } := by
  unfold updateChildrenInfo at h
  cases hl : childList w.dev.last with
  | none =>
    rw [hl] at h
    cases h
    refine ⟨rfl, fun id d d' h1 h2 => ?_⟩
    rw [h1] at h2
    cases h2
    rfl
  | some v =>
    rw [hl] at h
    simp only at h
    obtain ⟨comps, w1, h1, h⟩ := bind_eq_ok h
    obtain ⟨rs, w2, h2, h⟩ := bind_eq_ok h
    obtain ⟨ch, w3, h3, h5⟩ := bind_eq_ok h
    rw [lift_apply] at h1 h2
    have e1 : w = w1 := congrArg Prod.snd h1
    subst e1
    have e2 : w = w2 := congrArg Prod.snd h2
    subst e2
    cases h5
    unfold createDelete at h3
    simp only at h3
    obtain ⟨acc, w4, h4, h3⟩ := bind_eq_ok h3
    obtain ⟨q1, _, q3, q4, _, q6⟩ := considerAll env _ comps rs false acc w w4 h4
    have h3' : ((Except.ok (acc || !((Dict.keys w.kids).filter (fun id => !(presentIds comps rs).contains id)).isEmpty) : Except Exc Bool),
        { w4 with kids := ((Dict.keys w.kids).filter (fun id => !(presentIds comps rs).contains id)).foldl (fun k id => Dict.erase k id) w4.kids })
        = (.ok changed, w3) := h3
    obtain ⟨z1, z2⟩ := eraseAll_get ((Dict.keys w.kids).filter (fun id => !(presentIds comps rs).contains id)) w4.kids (q1 hwf)
    have hk3 : w3.kids = ((Dict.keys w.kids).filter (fun id => !(presentIds comps rs).contains id)).foldl (fun k id => Dict.erase k id) w4.kids :=
      congrArg (fun p => p.2.kids) h3'.symm
    have hch : (acc || !((Dict.keys w.kids).filter (fun id => !(presentIds comps rs).contains id)).isEmpty) = changed := by
      have e := congrArg Prod.fst h3'
      exact Except.ok.inj e
    have hget : ∀ id, Dict.get? (rs.foldl pushInfo w3).kids id =
        (if id ∈ (Dict.keys w.kids).filter (fun id => !(presentIds comps rs).contains id) then none else Dict.get? w4.kids id).map (withInfo rs id) := by
      intro id
      rw [pushAll_get, hk3, z2]
    have hmem : ∀ id, id ∈ Dict.keys (rs.foldl pushInfo w3).kids ↔
        id ∉ (Dict.keys w.kids).filter (fun id => !(presentIds comps rs).contains id) ∧ id ∈ Dict.keys w4.kids := by
      intro id
      constructor
      · intro hin
        by_cases hr : id ∈ (Dict.keys w.kids).filter (fun id => !(presentIds comps rs).contains id)
        · have := hget id
          rw [if_pos hr] at this
          exact absurd hin (Dict.get?_eq_none_iff.mp this)
        · refine ⟨hr, ?_⟩
          by_cases h4 : id ∈ Dict.keys w4.kids
          · exact h4
          · have := hget id
            rw [if_neg hr, Dict.get?_eq_none_iff.mpr h4] at this
            exact absurd hin (Dict.get?_eq_none_iff.mp this)
      · rintro ⟨hr, h4⟩
        by_cases hin : id ∈ Dict.keys (rs.foldl pushInfo w3).kids
        · exact hin
        · have := hget id
          rw [if_neg hr, Dict.get?_eq_none_iff.mpr hin] at this
          cases hg : Dict.get? w4.kids id with
          | none => exact absurd h4 (Dict.get?_eq_none_iff.mp hg)
          | some x => rw [hg] at this; cases this
    refine ⟨?_, ?_⟩
    · rw [← hch]
      have ha : acc = false := by
        cases hacc : acc with
        | false => rfl
        | true =>
          rcases q6.mp hacc with h | ⟨id, info, hne, hk, hm, hc⟩
          · cases h
          · have hin : id ∈ Dict.keys (rs.foldl pushInfo w3).kids :=
              (hmem id).mpr ⟨fun hr => hne (List.mem_filter.mp hr).1, (q4 id hne).mpr (Or.inr ⟨hk, info, hm, hc⟩)⟩
            exact absurd ((hsame id).mp hin) hne
      have hr : ((Dict.keys w.kids).filter (fun id => !(presentIds comps rs).contains id)) = [] := by
        apply List.eq_nil_iff_forall_not_mem.mpr
        intro id hr
        have hin := (hsame id).mpr (List.mem_filter.mp hr).1
        exact ((hmem id).mp hin).1 hr
      rw [ha, hr]
      rfl
    · intro id d d' hd hd'
      rw [hget] at hd'
      split at hd'
      · cases hd'
      · have hin : id ∈ Dict.keys w.kids := List.mem_map_of_mem (f := Prod.fst) (Dict.mem_of_get? hd)
        rw [q3 id hin, hd] at hd'
        simp only [Option.map_some, Option.some.injEq] at hd'
        rw [← hd']
        unfold withInfo
        split <;> rfl

/-- C60: an update of a hub that did not ask for its children, and found no child added or removed, leaves every child as it was,
but for its info. -/
theorem C60_spared (env : Env) (credentials : Bool) (w w' : World) (hwf : Dict.WF w.kids)
    (h : update env credentials false w = (.ok (), w')) (hhub : isHub w'.dev = true)
    (hsame : ∀ id, id ∈ Dict.keys w'.kids ↔ id ∈ Dict.keys w.kids)
    (id : String) (d d' : Dev) (hd : Dict.get? w.kids id = some d) (hd' : Dict.get? w'.kids id = some d') :
    d' = { d with info := d'.info } := by
  obtain ⟨w1, w2, w3, ch, k1, k2, k3, k4⟩ := update_parts env credentials false w w' h
  have e1 : w1.kids = w.kids := (congrArg (fun p => p.2.kids) k1).symm
  have e4 : w'.kids = w3.kids := (congrArg (fun p => p.2.kids) k4).symm
  have r3 := rest_updateKids env (ch || false) w2
  rw [k3] at r3
  have r4 := rest_features w3
  rw [k4] at r4
  have hh : isHub w2.dev = true := by
    rw [← hhub]
    unfold isHub
    rw [r4.kind, r3.kind]
  have hkeys : Dict.keys w3.kids = Dict.keys w2.kids := by
    have := kids_updateKidsIf env (ch || false) w2
    rw [k3] at this
    exact this
  have hs : ∀ id, id ∈ Dict.keys w2.kids ↔ id ∈ Dict.keys w1.kids := by
    intro id
    rw [e1, ← hsame id, e4, hkeys]
  obtain ⟨hc, hk⟩ := childrenInfo_ok env w1 w2 ch (by rw [e1]; exact hwf) k2 hs
  subst hc
  have e3 : w3 = w2 := by
    unfold updateKidsIf at k3
    rw [if_neg (by rw [hh]; decide)] at k3
    cases k3
    rfl
  rw [e4, e3] at hd'
  exact hk id d d' (by rw [e1]; exact hd) hd'

section Example
open Kasa.SmartDevice.Example

/-- A hub with children, updated once and then again without them. -/
example : isHub once.dev = true ∧ Dict.keys once.kids = ["A", "B"] ∧
    (once.kids.map (fun p => p.2.time)) = [some (env.clock 1), some (env.clock 2)] ∧
    (update env true false once).1.isOk = true ∧ Dict.keys (update env true false once).2.kids = ["A", "B"] ∧
    ((update env true false once).2.kids.map (fun p => p.2.time)) = [some (env.clock 1), some (env.clock 2)] ∧
    ((update env true true once).2.kids.map (fun p => p.2.time)) = [some (env.clock 4), some (env.clock 5)] := by decide +kernel

end Example

end Kasa.SmartDevice
