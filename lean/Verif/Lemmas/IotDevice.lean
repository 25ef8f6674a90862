import Verif.Model.IotDevice
import Verif.Spec.IotDevice
/-!
# Lemmas about merging and packing
-/

namespace Kasa.Iot

open IotSpec

/-- Merging, key by key. -/
theorem mergeKvs_get {source : List (String × Json)} (hs : Dict.WF source) : ∀ {dest r : List (String × Json)},
    mergeKvs dest source = .ok r → ∀ k,
      match Dict.get? source k with
      | none => Dict.get? r k = Dict.get? dest k
      | some v => ∃ w, mergeVal (Dict.get? dest k) v = .ok w ∧ Dict.get? r k = some w := by
  induction source with
  | nil =>
    intro dest r h k
    unfold mergeKvs at h
    cases h
    rfl
  | cons kv source ih =>
    obtain ⟨k0, v0⟩ := kv
    rw [Dict.WF_cons] at hs
    intro dest r h k
    unfold mergeKvs at h
    simp only [bind, Except.bind] at h
    cases hv : mergeVal (Dict.get? dest k0) v0 with
    | error e => rw [hv] at h; cases h
    | ok x =>
      rw [hv] at h
      have := ih hs.2 h k
      rw [Dict.get?_cons]
      by_cases hk : k0 = k
      · subst hk
        have hn : Dict.get? source k0 = none := Dict.get?_eq_none_iff.mpr hs.1
        rw [hn] at this
        simp only [if_true]
        exact ⟨x, hv, by rw [this]; simp⟩
      · simp only [hk, if_false]
        rw [Dict.get?_set_ne _ _ hk] at this
        exact this

/-- Merging succeeds if it does under every key. -/
theorem mergeKvs_total {source : List (String × Json)} (hs : Dict.WF source) : ∀ {dest : List (String × Json)},
    (∀ k v, Dict.get? source k = some v → ∃ w, mergeVal (Dict.get? dest k) v = .ok w) →
    ∃ r, mergeKvs dest source = .ok r := by
  induction source with
  | nil => intro dest _; exact ⟨dest, by unfold mergeKvs; rfl⟩
  | cons kv source ih =>
    obtain ⟨k0, v0⟩ := kv
    rw [Dict.WF_cons] at hs
    intro dest h
    obtain ⟨w, hw⟩ := h k0 v0 (by rw [Dict.get?_cons]; simp)
    unfold mergeKvs
    simp only [bind, Except.bind, hw]
    apply ih hs.2
    intro k v hk
    have hne : k0 ≠ k := by
      rintro rfl
      rw [Dict.get?_eq_none_iff.mpr hs.1] at hk
      cases hk
    rw [Dict.get?_set_ne _ _ hne]
    exact h k v (by rw [Dict.get?_cons]; simp [hne, hk])

theorem mergeKvs_wf {source : List (String × Json)} : ∀ {dest r : List (String × Json)}, Dict.WF dest →
    mergeKvs dest source = .ok r → Dict.WF r := by
  induction source with
  | nil => intro dest r hd h; unfold mergeKvs at h; cases h; exact hd
  | cons kv source ih =>
    obtain ⟨k0, v0⟩ := kv
    intro dest r hd h
    unfold mergeKvs at h
    simp only [bind, Except.bind] at h
    cases hv : mergeVal (Dict.get? dest k0) v0 with
    | error e => rw [hv] at h; cases h
    | ok x => rw [hv] at h; exact ih (Dict.WF_set hd _ _) h

theorem Agree.symm {a b : Json} (h : Agree a b) : Agree b a := by
  induction h with
  | same v => exact .same v
  | dict a b _ ih => exact .dict b a fun k v w hv hw => ih k w v hw hv

theorem size_of_get {kvs : List (String × Json)} {k : String} {v : Json} (h : Dict.get? kvs k = some v) :
    sizeOf v < sizeOf (Json.obj kvs) := by
  have := List.sizeOf_lt_of_mem (Dict.mem_of_get? h)
  simp at this ⊢
  omega

/-- What merging `q` into `r` gives, for queries that do not contradict each other. -/
theorem merge_main (n : Nat) : ∀ (q r : Json), sizeOf q ≤ n → Proper q → Agree r q →
    ∃ s, mergeVal (some r) q = .ok s ∧ PartOf q s ∧
      (∀ p, PartOf p r → Agree p q → PartOf p s) ∧ (∀ p, Agree r p → Agree q p → Agree s p) := by
  induction n with
  | zero =>
    intro q r hn
    cases q <;> simp at hn
  | succ n ih =>
    intro q r hn hq ha
    cases q with
    | obj src =>
      cases hq with
      | obj _ hw hp =>
        -- the destination is a dict
        obtain ⟨d, rfl⟩ : ∃ d, r = .obj d := by
          cases ha with
          | same => exact ⟨src, rfl⟩
          | dict a b h => exact ⟨a, rfl⟩
        have hag : ∀ k v w, Dict.get? d k = some v → Dict.get? src k = some w → Agree v w := by
          cases ha with
          | same =>
            intro k v w hv hw'
            rw [hv] at hw'
            cases hw'
            exact .same v
          | dict a b h => exact h
        have hsub : ∀ k v w, Dict.get? d k = some w → Dict.get? src k = some v →
            ∃ s, mergeVal (some w) v = .ok s ∧ PartOf v s ∧ (∀ p, PartOf p w → Agree p v → PartOf p s) ∧
              (∀ p, Agree w p → Agree v p → Agree s p) := by
          intro k v w hd hs
          have := size_of_get hs
          exact ih v w (by omega) (hp _ (Dict.mem_of_get? hs)) (hag k w v hd hs)
        obtain ⟨out, hout⟩ : ∃ out, mergeKvs d src = .ok out := by
          apply mergeKvs_total hw
          intro k v hv
          cases hd : Dict.get? d k with
          | none => exact ⟨v, by cases v <;> rfl⟩
          | some w => obtain ⟨s, h1, -⟩ := hsub k v w hd hv; exact ⟨s, h1⟩
        have hget := mergeKvs_get hw hout
        refine ⟨.obj out, by unfold mergeVal; simp only [bind, Except.bind, hout]; rfl, ?_, ?_, ?_⟩
        · refine .dict _ _ ?_ ?_
          · intro k v hv hnone
            have := hget k
            rw [hv] at this
            obtain ⟨w, -, h2⟩ := this
            rw [hnone] at h2
            cases h2
          · intro k v s hv hs
            have := hget k
            rw [hv] at this
            obtain ⟨w, h1, h2⟩ := this
            rw [hs] at h2
            cases h2
            cases hd : Dict.get? d k with
            | none =>
              rw [hd] at h1
              have : mergeVal none v = .ok v := by cases v <;> rfl
              rw [this] at h1
              cases h1
              exact .same v
            | some x =>
              rw [hd] at h1
              obtain ⟨s', h3, h4, -⟩ := hsub k v x hd hv
              rw [h1] at h3
              cases h3
              exact h4
        · intro p hpart hpq
          -- p is part of d
          have hpd : ∃ pd, p = .obj pd ∧ (∀ k v, Dict.get? pd k = some v → ∃ w, Dict.get? d k = some w ∧ PartOf v w) := by
            cases hpart with
            | same => exact ⟨d, rfl, fun k v hv => ⟨v, hv, .same v⟩⟩
            | dict a b h1 h2 =>
              refine ⟨a, rfl, fun k v hv => ?_⟩
              cases hd : Dict.get? d k with
              | none => exact absurd hd (h1 k v hv)
              | some w => exact ⟨w, rfl, h2 k v w hv hd⟩
          obtain ⟨pd, rfl, hpd⟩ := hpd
          have hpq' : ∀ k v w, Dict.get? pd k = some v → Dict.get? src k = some w → Agree v w := by
            cases hpq with
            | same => intro k v w hv hw'; rw [hv] at hw'; cases hw'; exact .same v
            | dict a b h => exact h
          have step : ∀ k v, Dict.get? pd k = some v → ∃ s, Dict.get? out k = some s ∧ PartOf v s := by
            intro k v hv
            obtain ⟨w, hd, hvw⟩ := hpd k v hv
            have hg := hget k
            cases hs : Dict.get? src k with
            | none => rw [hs] at hg; exact ⟨w, by rw [hg, hd], hvw⟩
            | some x =>
              rw [hs] at hg
              obtain ⟨s, h1, h2⟩ := hg
              rw [hd] at h1
              obtain ⟨s', h3, -, h5, -⟩ := hsub k x w hd hs
              rw [h1] at h3
              cases h3
              exact ⟨s, h2, h5 v hvw (hpq' k v x hv hs)⟩
          refine .dict _ _ ?_ ?_
          · intro k v hv hnone
            obtain ⟨s, h1, -⟩ := step k v hv
            rw [hnone] at h1
            cases h1
          · intro k v s hv hs
            obtain ⟨s', h1, h2⟩ := step k v hv
            rw [hs] at h1
            cases h1
            exact h2
        · intro p hrp hqp
          -- p is a dict
          obtain ⟨pd, rfl⟩ : ∃ pd, p = .obj pd := by
            cases hrp with
            | same => exact ⟨d, rfl⟩
            | dict a b h => exact ⟨b, rfl⟩
          have hrp' : ∀ k v w, Dict.get? d k = some v → Dict.get? pd k = some w → Agree v w := by
            cases hrp with
            | same => intro k v w hv hw'; rw [hv] at hw'; cases hw'; exact .same v
            | dict a b h => exact h
          have hqp' : ∀ k v w, Dict.get? src k = some v → Dict.get? pd k = some w → Agree v w := by
            cases hqp with
            | same => intro k v w hv hw'; rw [hv] at hw'; cases hw'; exact .same v
            | dict a b h => exact h
          refine .dict _ _ ?_
          intro k s x hs hx
          have hg := hget k
          cases hsrc : Dict.get? src k with
          | none => rw [hsrc] at hg; rw [hs] at hg; exact hrp' k s x hg.symm hx
          | some v =>
            rw [hsrc] at hg
            obtain ⟨s', h1, h2⟩ := hg
            rw [hs] at h2
            cases h2
            cases hd : Dict.get? d k with
            | none =>
              rw [hd] at h1
              have : mergeVal none v = .ok v := by cases v <;> rfl
              rw [this] at h1
              cases h1
              exact hqp' k _ x hsrc hx
            | some w =>
              rw [hd] at h1
              obtain ⟨s'', h3, -, -, h6⟩ := hsub k v w hd hsrc
              rw [h1] at h3
              cases h3
              exact h6 x (hrp' k w x hd hx) (hqp' k v x hsrc hx)
    | null | bool _ | num _ | str _ | arr _ =>
      cases ha
      refine ⟨_, rfl, .same _, fun p h _ => h, fun p h _ => h⟩

/-- Merging introduces no paths. -/
theorem merge_paths (n : Nat) : ∀ (q : Json), sizeOf q ≤ n → Proper q → ∀ (r s : Json), mergeVal (some r) q = .ok s →
    ∀ path, follow s path ≠ none → follow r path ≠ none ∨ follow q path ≠ none := by
  induction n with
  | zero => intro q hn; cases q <;> simp at hn
  | succ n ih =>
    intro q hn hq r s hm path hf
    cases path with
    | nil => exact Or.inl (by cases r <;> simp [follow])
    | cons k path =>
      cases q with
      | obj src =>
        cases hq with
        | obj _ hw hp =>
          cases r with
          | obj d =>
            unfold mergeVal at hm
            simp only [bind, Except.bind] at hm
            cases ho : mergeKvs d src with
            | error e => rw [ho] at hm; cases hm
            | ok out =>
              rw [ho] at hm
              cases hm
              have hg := mergeKvs_get hw ho k
              unfold follow at hf ⊢
              cases hs : Dict.get? src k with
              | none =>
                rw [hs] at hg
                simp only at hg
                rw [hg] at hf
                exact Or.inl hf
              | some v =>
                rw [hs] at hg
                obtain ⟨w, h1, h2⟩ := hg
                rw [h2] at hf
                simp only at hf
                cases hd : Dict.get? d k with
                | none =>
                  rw [hd] at h1
                  have : mergeVal none v = .ok v := by cases v <;> rfl
                  rw [this] at h1
                  cases h1
                  exact Or.inr hf
                | some x =>
                  rw [hd] at h1
                  have := size_of_get hs
                  exact ih v (by omega) (hp _ (Dict.mem_of_get? hs)) x w h1 path hf
          | null | bool _ | num _ | str _ | arr _ =>
            unfold mergeVal at hm
            split at hm
            · cases hm; exact Or.inl hf
            · cases hm
      | null | bool _ | num _ | str _ | arr _ => cases r <;> (cases hm; exact Or.inr hf)

/-! ## Packing -/

/-- Merging the queries of a group, one after the other. -/
def mergedFrom (r : List (String × Json)) : List Mod → Except Exc (List (String × Json))
  | [] => .ok r
  | m :: ms => do
    let r' ← mergeKvs r m.query
    mergedFrom r' ms

theorem pack_groups (budget : Nat) : ∀ (ms : List Mod) (done : List (List (String × Json))) (req : List (String × Json))
    (est : Nat) (out : List (List (String × Json))), pack budget done req est ms = .ok out →
    ∃ (first : List Mod) (r : List (String × Json)) (rest : List (List Mod × List (String × Json))),
      Split Mod.size budget est ms first (rest.map Prod.fst) ∧ out = done ++ r :: rest.map Prod.snd ∧
      mergedFrom req first = .ok r ∧ ∀ p ∈ rest, mergedFrom [] p.1 = .ok p.2 := by
  intro ms
  induction ms with
  | nil =>
    intro done req est out h
    unfold pack at h
    cases h
    exact ⟨[], req, [], ⟨rfl, fun h => absurd rfl h, by simp, by simp⟩, rfl, rfl, by simp⟩
  | cons m ms ih =>
    intro done req est out h
    unfold pack at h
    by_cases hb : est + m.size > budget
    · rw [if_pos hb] at h
      simp only [bind, Except.bind] at h
      cases hm : mergeKvs [] m.query with
      | error e => rw [hm] at h; cases h
      | ok req' =>
        rw [hm] at h
        obtain ⟨first, r, rest, hs, ho, h1, h2⟩ := ih _ _ _ _ h
        refine ⟨[], req, (m :: first, r) :: rest, ⟨?_, fun h => absurd rfl h, ?_, ?_⟩, ?_, rfl, ?_⟩
        · have := hs.all
          simp only [List.map_cons, List.flatten_cons, List.nil_append, List.cons_append]
          rw [this]
        · intro g hg
          rcases List.mem_cons.mp hg with rfl | hg
          · by_cases hf : first = []
            · exact Or.inl (by simp [hf])
            · right
              have := hs.fitsFirst hf
              simpa [total] using this
          · exact hs.fits g hg
        · intro g hg
          rcases List.mem_cons.mp hg with rfl | hg
          · simp
          · exact hs.nonempty g hg
        · rw [ho]; simp
        · intro p hp
          rcases List.mem_cons.mp hp with rfl | hp
          · unfold mergedFrom
            simp only [bind, Except.bind, hm, h1]
          · exact h2 p hp
    · rw [if_neg hb] at h
      simp only [bind, Except.bind] at h
      cases hm : mergeKvs req m.query with
      | error e => rw [hm] at h; cases h
      | ok req' =>
        rw [hm] at h
        obtain ⟨first, r, rest, hs, ho, h1, h2⟩ := ih _ _ _ _ h
        refine ⟨m :: first, r, rest, ⟨?_, fun _ => ?_, hs.fits, hs.nonempty⟩, ho, ?_, h2⟩
        · rw [List.cons_append, hs.all]
        · by_cases hf : first = []
          · subst hf; simp [total]; omega
          · have := hs.fitsFirst hf
            simp only [total, List.map_cons, List.sum_cons] at this ⊢
            omega
        · unfold mergedFrom
          simp only [bind, Except.bind, hm, h1]

/-- Merging a group of queries that do not contradict each other. -/
theorem mergedFrom_main : ∀ (ms : List Mod) (r : List (String × Json)),
    (∀ m ∈ ms, Proper (.obj m.query)) → (∀ m ∈ ms, Agree (.obj r) (.obj m.query)) →
    (∀ m ∈ ms, ∀ m' ∈ ms, Agree (.obj m.query) (.obj m'.query)) →
    ∃ s, mergedFrom r ms = .ok s ∧ (∀ m ∈ ms, PartOf (.obj m.query) (.obj s)) ∧
      (∀ p, PartOf p (.obj r) → (∀ m ∈ ms, Agree p (.obj m.query)) → PartOf p (.obj s)) ∧
      (∀ path, follow (.obj s) path ≠ none → follow (.obj r) path ≠ none ∨ ∃ m ∈ ms, follow (.obj m.query) path ≠ none) := by
  intro ms
  induction ms with
  | nil =>
    intro r _ _ _
    exact ⟨r, rfl, by simp, fun p h _ => h, fun path h => Or.inl h⟩
  | cons m ms ih =>
    intro r hp har hag
    obtain ⟨s, h1, h2, h3, h4⟩ := merge_main _ (.obj m.query) (.obj r) (Nat.le_refl _) (hp m List.mem_cons_self)
      (har m List.mem_cons_self)
    have h5 := merge_paths _ (.obj m.query) (Nat.le_refl _) (hp m List.mem_cons_self) _ _ h1
    unfold mergeVal at h1
    simp only [bind, Except.bind] at h1
    cases hm : mergeKvs r m.query with
    | error e => rw [hm] at h1; cases h1
    | ok d =>
      rw [hm] at h1
      cases h1
      obtain ⟨t, t1, t2, t3, t4⟩ := ih d (fun x hx => hp x (List.mem_cons_of_mem _ hx))
        (fun x hx => h4 _ (har x (List.mem_cons_of_mem _ hx)) (hag m List.mem_cons_self x (List.mem_cons_of_mem _ hx)))
        (fun x hx y hy => hag x (List.mem_cons_of_mem _ hx) y (List.mem_cons_of_mem _ hy))
      refine ⟨t, by unfold mergedFrom; simp only [bind, Except.bind, hm, t1], ?_, ?_, ?_⟩
      · intro x hx
        rcases List.mem_cons.mp hx with rfl | hx
        · exact t3 _ h2 (fun y hy => hag x List.mem_cons_self y (List.mem_cons_of_mem _ hy))
        · exact t2 x hx
      · intro p h6 h7
        exact t3 p (h3 p h6 (h7 m List.mem_cons_self)) (fun y hy => h7 y (List.mem_cons_of_mem _ hy))
      · intro path hf
        rcases t4 path hf with h6 | ⟨x, hx, h6⟩
        · rcases h5 path h6 with h7 | h7
          · exact Or.inl h7
          · exact Or.inr ⟨m, List.mem_cons_self, h7⟩
        · exact Or.inr ⟨x, List.mem_cons_of_mem _ hx, h6⟩

theorem set_ne_nil {d : List (String × Json)} {k : String} {v : Json} : Dict.set d k v ≠ [] := by
  cases d with
  | nil => simp [Dict.set]
  | cons p d => obtain ⟨a, b⟩ := p; unfold Dict.set; split <;> simp

theorem mergeKvs_ne_nil : ∀ (src dest r : List (String × Json)), mergeKvs dest src = .ok r → dest ≠ [] → r ≠ [] := by
  intro src
  induction src with
  | nil => intro dest r h hd; unfold mergeKvs at h; cases h; exact hd
  | cons kv src ih =>
    obtain ⟨k, v⟩ := kv
    intro dest r h _
    unfold mergeKvs at h
    simp only [bind, Except.bind] at h
    cases hv : mergeVal (Dict.get? dest k) v with
    | error e => rw [hv] at h; cases h
    | ok x => rw [hv] at h; exact ih _ _ h set_ne_nil

theorem mergedFrom_ne_nil : ∀ (ms : List Mod) (r s : List (String × Json)), mergedFrom r ms = .ok s → r ≠ [] → s ≠ [] := by
  intro ms
  induction ms with
  | nil => intro r s h hr; cases h; exact hr
  | cons m ms ih =>
    intro r s h hr
    unfold mergedFrom at h
    simp only [bind, Except.bind] at h
    cases hv : mergeKvs r m.query with
    | error e => rw [hv] at h; cases h
    | ok x => rw [hv] at h; exact ih _ _ h (mergeKvs_ne_nil _ _ _ hv hr)

/-! ## Answers -/

theorem mergeItem_known {upd upd' : List (String × Json)} {kv : String × Json} (h : mergeItem upd kv = .ok upd')
    (hw : ∀ v, kv.2 = .obj v → Dict.WF v) (t c : String) :
    known upd' t c = (known [kv] t c).or (known upd t c) := by
  obtain ⟨k, x⟩ := kv
  unfold mergeItem at h
  cases x with
  | obj v =>
    simp only at h
    have hv := hw v rfl
    have key : ∀ d : List (String × Json), known (Dict.set upd k (.obj (Dict.update d v))) t c =
        if k = t then (Dict.get? v c).or (Dict.get? d c) else known upd t c := by
      intro d
      unfold known
      rw [Dict.get?_set]
      by_cases hk : k = t
      · simp only [hk, if_true]
        exact Dict.get?_update hv c
      · simp [hk]
    cases hg : Dict.get? upd k with
    | none =>
      rw [hg] at h
      cases h
      rw [key]
      by_cases hk : k = t
      · subst hk; simp [known, Dict.get?_cons, hg]
      · simp [known, Dict.get?_cons, hk]
    | some y =>
      rw [hg] at h
      cases y with
      | obj d =>
        cases h
        rw [key]
        by_cases hk : k = t
        · subst hk; simp [known, Dict.get?_cons, hg]
        · simp [known, Dict.get?_cons, hk]
      | null | bool _ | num _ | str _ | arr _ => cases h
  | null | bool _ | num _ | str _ | arr _ =>
    cases h
    unfold known
    rw [Dict.get?_cons]
    by_cases hk : k = t <;> simp [hk]

theorem mergeItems_known : ∀ (kvs : List (String × Json)) (upd upd' : List (String × Json)), mergeItems upd kvs = .ok upd' →
    Dict.WF kvs → (∀ kv ∈ kvs, ∀ v, kv.2 = .obj v → Dict.WF v) → ∀ t c,
    known upd' t c = (known kvs t c).or (known upd t c) := by
  intro kvs
  induction kvs with
  | nil => intro upd upd' h _ _ t c; unfold mergeItems at h; cases h; simp [known]
  | cons kv kvs ih =>
    intro upd upd' h hw hv t c
    unfold mergeItems at h
    simp only [bind, Except.bind] at h
    cases hm : mergeItem upd kv with
    | error e => rw [hm] at h; cases h
    | ok u =>
      rw [hm] at h
      rw [Dict.WF_cons] at hw
      rw [ih u upd' h hw.2 (fun x hx => hv x (List.mem_cons_of_mem _ hx)),
        mergeItem_known hm (hv kv List.mem_cons_self)]
      by_cases hk : kv.1 = t
      · have hn : known kvs t c = none := by
          unfold known
          rw [Dict.get?_eq_none_iff.mpr (hk ▸ hw.1)]
        have he : known (kv :: kvs) t c = known [kv] t c := by
          unfold known
          rw [Dict.get?_cons, Dict.get?_cons]
          simp [hk]
        rw [hn, he]; simp
      · have he : known (kv :: kvs) t c = known kvs t c := by
          unfold known
          rw [Dict.get?_cons]
          simp [hk]
        have hn : known [kv] t c = none := by
          unfold known
          rw [Dict.get?_cons]
          simp [hk]
        rw [hn, he]; simp

theorem mergeItems_other : ∀ (kvs : List (String × Json)) (upd upd' : List (String × Json)), mergeItems upd kvs = .ok upd' →
    ∀ t, (∀ kv ∈ kvs, kv.1 = t → ∀ v, kv.2 ≠ .obj v) → Dict.get? upd' t = Dict.get? upd t := by
  intro kvs
  induction kvs with
  | nil => intro upd upd' h t _; unfold mergeItems at h; cases h; rfl
  | cons kv kvs ih =>
    intro upd upd' h t hn
    unfold mergeItems at h
    simp only [bind, Except.bind] at h
    cases hm : mergeItem upd kv with
    | error e => rw [hm] at h; cases h
    | ok u =>
      rw [hm] at h
      rw [ih u upd' h t (fun x hx => hn x (List.mem_cons_of_mem _ hx))]
      obtain ⟨k, x⟩ := kv
      unfold mergeItem at hm
      cases x with
      | obj v =>
        have hk : k ≠ t := fun hk => hn _ List.mem_cons_self hk v rfl
        simp only at hm
        cases hg : Dict.get? upd k with
        | none => rw [hg] at hm; cases hm; exact Dict.get?_set_ne _ _ hk
        | some y =>
          rw [hg] at hm
          cases y with
          | obj d => cases hm; exact Dict.get?_set_ne _ _ hk
          | null | bool _ | num _ | str _ | arr _ => cases hm
      | null | bool _ | num _ | str _ | arr _ => cases hm; rfl

/-- What is known after merging the answers. -/
theorem mergeResponses_known : ∀ (rs : List (List (String × Json))) (upd upd' : List (String × Json)),
    mergeResponses upd (rs.map .obj) = .ok upd' → (∀ r ∈ rs, Proper (.obj r)) → ∀ t c,
    known upd' t c = (latest rs t c).or (known upd t c) := by
  intro rs
  induction rs with
  | nil => intro upd upd' h _ t c; cases h; simp [latest]
  | cons r rs ih =>
    intro upd upd' h hp t c
    simp only [List.map_cons, mergeResponses, bind, Except.bind] at h
    cases hm : mergeItems upd r with
    | error e => rw [hm] at h; cases h
    | ok u =>
      rw [hm] at h
      have hr := hp r List.mem_cons_self
      cases hr with
      | obj _ hw hv =>
        rw [ih u upd' h (fun x hx => hp x (List.mem_cons_of_mem _ hx)), mergeItems_known r upd u hm hw ?_ t c]
        · show _ = ((latest rs t c).or (known r t c)).or (known upd t c)
          rw [Option.or_assoc]
        · intro kv hkv v hv'
          have := hv kv hkv
          rw [hv'] at this
          cases this
          assumption

theorem mergeResponses_other : ∀ (rs : List (List (String × Json))) (upd upd' : List (String × Json)),
    mergeResponses upd (rs.map .obj) = .ok upd' → ∀ t,
    (∀ r ∈ rs, ∀ kv ∈ r, kv.1 = t → ∀ v, kv.2 ≠ .obj v) → Dict.get? upd' t = Dict.get? upd t := by
  intro rs
  induction rs with
  | nil => intro upd upd' h t _; cases h; rfl
  | cons r rs ih =>
    intro upd upd' h t hn
    simp only [List.map_cons, mergeResponses, bind, Except.bind] at h
    cases hm : mergeItems upd r with
    | error e => rw [hm] at h; cases h
    | ok u =>
      rw [hm] at h
      rw [ih u upd' h t (fun x hx => hn x (List.mem_cons_of_mem _ hx)),
        mergeItems_other r upd u hm t (hn r List.mem_cons_self)]

theorem mergeResponses_dicts : ∀ (xs : List Json) (upd upd' : List (String × Json)), mergeResponses upd xs = .ok upd' →
    ∃ rs : List (List (String × Json)), xs = rs.map .obj := by
  intro xs
  induction xs with
  | nil => intro _ _ _; exact ⟨[], rfl⟩
  | cons x xs ih =>
    intro upd upd' h
    cases x with
    | obj kvs =>
      simp only [mergeResponses, bind, Except.bind] at h
      cases hm : mergeItems upd kvs with
      | error e => rw [hm] at h; cases h
      | ok u =>
        rw [hm] at h
        obtain ⟨rs, rfl⟩ := ih u upd' h
        exact ⟨kvs :: rs, rfl⟩
    | null | bool _ | num _ | str _ | arr _ => cases h

/-! ## Sending -/

/-- The requests that are sent. -/
def nonEmpty (rs : List (List (String × Json))) : List Json := (rs.filter fun r => !r.isEmpty).map .obj

theorem pack_sends {budget est : Nat} {req : List (String × Json)} {ms : List Mod} {out : List (List (String × Json))}
    (h : pack budget [] req est ms = .ok out) (hr : req ≠ []) : nonEmpty out ≠ [] := by
  obtain ⟨first, r, rest, -, ho, h1, -⟩ := pack_groups budget ms [] req est out h
  have := mergedFrom_ne_nil first req r h1 hr
  rw [ho]
  cases r with
  | nil => exact absurd rfl this
  | cons a l => simp [nonEmpty]

theorem queryAll_ok (env : Env) : ∀ (rs : List (List (String × Json))) (w w' : W) (xs : List Json),
    queryAll env rs w = (.ok xs, w') →
    w'.dev = w.dev ∧ w'.sent = w.sent ++ nonEmpty rs ∧ xs.length = (nonEmpty rs).length ∧
    ∀ i (h : i < xs.length), env.answer (w.sent ++ (nonEmpty rs).take (i + 1)) = .ok xs[i] := by
  intro rs
  induction rs with
  | nil =>
    intro w w' xs h
    cases h
    exact ⟨rfl, by simp [nonEmpty], rfl, fun i h => absurd h (by simp)⟩
  | cons r rs ih =>
    intro w w' xs h
    unfold queryAll at h
    by_cases hr : r.isEmpty = true
    · rw [if_pos hr] at h
      have : nonEmpty (r :: rs) = nonEmpty rs := by simp [nonEmpty, hr]
      rw [this]
      exact ih w w' xs h
    · rw [if_neg hr] at h
      have hn : nonEmpty (r :: rs) = .obj r :: nonEmpty rs := by simp [nonEmpty, hr]
      obtain ⟨x, w1, h1, h2⟩ := PyM.bind_eq_ok h
      obtain ⟨ys, w2, h3, h4⟩ := PyM.bind_eq_ok h2
      cases h4
      unfold query at h1
      simp only [PyM.bind_apply, PyM.modify_apply, PyM.get_apply, PyM.lift_apply, Prod.mk.injEq] at h1
      obtain ⟨h1, rfl⟩ := h1
      obtain ⟨d1, d2, d3, d4⟩ := ih _ _ _ h3
      rw [hn]
      refine ⟨d1, by rw [d2]; simp, by simp [d3], ?_⟩
      intro i hi
      cases i with
      | zero => simpa using h1
      | succ i =>
        have := d4 i (by simpa using hi)
        simpa [List.append_assoc] using this

theorem queryAll_error (env : Env) : ∀ (rs : List (List (String × Json))) (w w' : W) (e : Exc),
    queryAll env rs w = (.error e, w') →
    w'.dev = w.dev ∧ ∃ k, w'.sent = w.sent ++ (nonEmpty rs).take k ∧ env.answer w'.sent = .error e := by
  intro rs
  induction rs with
  | nil => intro w w' e h; cases h
  | cons r rs ih =>
    intro w w' e h
    unfold queryAll at h
    by_cases hr : r.isEmpty = true
    · rw [if_pos hr] at h
      have : nonEmpty (r :: rs) = nonEmpty rs := by simp [nonEmpty, hr]
      rw [this]
      exact ih w w' e h
    · rw [if_neg hr] at h
      have hn : nonEmpty (r :: rs) = .obj r :: nonEmpty rs := by simp [nonEmpty, hr]
      rcases PyM.bind_eq_error h with h1 | ⟨x, w1, h1, h2⟩
      · unfold query at h1
        simp only [PyM.bind_apply, PyM.modify_apply, PyM.get_apply, PyM.lift_apply, Prod.mk.injEq] at h1
        obtain ⟨h1, rfl⟩ := h1
        exact ⟨rfl, 1, by simp [hn], h1⟩
      · unfold query at h1
        simp only [PyM.bind_apply, PyM.modify_apply, PyM.get_apply, PyM.lift_apply, Prod.mk.injEq] at h1
        obtain ⟨h1, rfl⟩ := h1
        rcases PyM.bind_eq_error h2 with h3 | ⟨ys, w2, h3, h4⟩
        · obtain ⟨d1, k, d2, d3⟩ := ih _ _ _ h3
          exact ⟨d1, k + 1, by rw [d2, hn]; simp, d3⟩
        · cases h4

end Kasa.Iot
