import Verif.Model.Redact
import Verif.Spec.Redact
/-!
# Redaction: helper lemmas
-/

namespace Kasa.Redact

open Heap PyM

/-! ## The pure function -/

theorem redactList_eq (R : Table) : ∀ xs, redactList R xs = xs.map (redact R)
  | [] => by rw [redactList]; rfl
  | x :: xs => by rw [redactList, redactList_eq R xs]; rfl

/-- The value put under a key. -/
def entry (R : Table) (k : String) (v : Json) : Json :=
  if skipped v then v else match Dict.get? R k with
    | some r => masked r v
    | none => redact R v

theorem redactKvs_eq (R : Table) : ∀ kvs, redactKvs R kvs = kvs.map fun kv => (kv.1, entry R kv.1 kv.2)
  | [] => by rw [redactKvs]; rfl
  | (k, v) :: kvs => by rw [redactKvs, redactKvs_eq R kvs]; rfl

theorem get?_redactKvs (R : Table) (kvs : List (String × Json)) (k : String) :
    Dict.get? (redactKvs R kvs) k = (Dict.get? kvs k).map (entry R k) := by
  rw [redactKvs_eq]
  induction kvs with
  | nil => rfl
  | cons kv kvs ih =>
    rw [List.map_cons, Dict.get?_cons, Dict.get?_cons]
    by_cases hk : kv.1 = k
    · rw [if_pos hk, if_pos hk, ← hk]; rfl
    · rw [if_neg hk, if_neg hk, ih]

theorem redact_skipped {R : Table} {v : Json} (hs : skipped v = true) : redact R v = v := by
  cases v <;> first | rfl | (simp [skipped] at hs) | (rw [redact])

theorem entry_none {R : Table} {k : String} (hk : Dict.get? R k = none) (v : Json) : entry R k v = redact R v := by
  unfold entry
  by_cases hs : skipped v = true
  · rw [if_pos hs, redact_skipped hs]
  · rw [if_neg hs, hk]

theorem skipped_iff (v : Json) : skipped v = true ↔ RedactSpec.Blank v := by
  unfold RedactSpec.Blank
  cases v <;> simp [skipped]

/-! ## Heap version -/

mutual
/-- Nesting depth. -/
def height : Json → Nat
  | .arr xs => heightList xs + 1
  | .obj kvs => heightKvs kvs + 1
  | _ => 1
def heightList : List Json → Nat
  | [] => 0
  | x :: xs => max (height x) (heightList xs)
def heightKvs : List (String × Json) → Nat
  | [] => 0
  | (_, x) :: xs => max (height x) (heightKvs xs)
end

theorem height_pos (j : Json) : 0 < height j := by
  cases j <;> simp [height]

/-- A redactor on objects does what the function on values does, and changes no existing object. -/
def Implements (f : Val → PyM Mem Val) (g : Json → Option Json) : Prop :=
  ∀ (P : Nat → Prop) (h : Mem) (v : Val) (j : Json), (∀ n, h.length ≤ n → P n) → DenotesIn P h v j →
    match g j with
    | some w => ∃ h' v', f v h = (.ok v', h') ∧ Extends h h' ∧ DenotesIn P h' v' w
    | none => ∃ e h', f v h = (.error e, h') ∧ Extends h h'

/-- The same for a table. -/
def ImplementsTable (RH : HTable) (R : Table) : Prop :=
  ∀ k, match Dict.get? RH k, Dict.get? R k with
    | none, none => True
    | some none, some none => True
    | some (some f), some (some g) => Implements f g
    | _, _ => False

theorem skippedV_eq {P : Nat → Prop} {h : Mem} {v : Val} {j : Json} (d : DenotesIn P h v j) :
    skippedV v = skipped j := by
  cases j <;> rw [DenotesIn] at d
  · subst d; rfl
  · subst d; rfl
  · subst d; rfl
  · subst d; rfl
  · obtain ⟨a, xs, h1, _⟩ := d
    subst h1; rfl
  · obtain ⟨a, xs, h1, _⟩ := d
    subst h1; rfl

theorem set_middle {done rest : List (String × Val)} {k : String} {x w : Val}
    (hk : k ∉ Dict.keys done) :
    Dict.set (done ++ (k, x) :: rest) k w = done ++ (k, w) :: rest := by
  induction done with
  | nil => simp [Dict.set]
  | cons p done ih =>
    rw [Dict.keys_cons, List.mem_cons, not_or] at hk
    obtain ⟨l, y⟩ := p
    have : ¬ l = k := fun e => hk.1 e.symm
    simp [Dict.set, this, ih hk.2]

section
variable {RH : HTable} {R : Table} (hR : ImplementsTable RH R)
include hR

/-- What the recursive call is known to do. -/
def Good (RH : HTable) (R : Table) (d : Nat) (j : Json) : Prop :=
  ∀ (P : Nat → Prop) (h : Mem) (v : Val), (∀ n, h.length ≤ n → P n) → DenotesIn P h v j →
    ∃ h' v', redactH RH d v h = (.ok v', h') ∧ Extends h h' ∧ DenotesIn P h' v' (redact R j)

omit hR in
theorem mapH_spec (d : Nat) : ∀ (js : List Json), (∀ j ∈ js, Good RH R d j) →
    ∀ (P : Nat → Prop) (h : Mem) (xs : List Val), (∀ n, h.length ≤ n → P n) → DenotesList P h xs js →
      ∃ h' ys, mapH (redactH RH d) xs h = (.ok ys, h') ∧ Extends h h' ∧ DenotesList P h' ys (redactList R js)
  | [], _, P, h, xs, _, hd => by
    rw [DenotesList] at hd
    subst hd
    exact ⟨h, [], rfl, Extends.refl h, by rw [redactList, DenotesList]⟩
  | j :: js, hg, P, h, xs, hP, hd => by
    rw [DenotesList] at hd
    obtain ⟨x, xs', rfl, hx, hxs⟩ := hd
    obtain ⟨h1, y, e1, x1, d1⟩ := hg j (by simp) P h x hP hx
    obtain ⟨h2, ys, e2, x2, d2⟩ := mapH_spec d js (fun j hj => hg j (by simp [hj])) P h1 xs'
      (fun n hn => hP n (Nat.le_trans x1.length hn)) (hxs.ext x1)
    refine ⟨h2, y :: ys, ?_, x1.trans x2, ?_⟩
    · rw [mapH, bind_ok e1, bind_ok e2]; rfl
    · rw [redactList, DenotesList]
      exact ⟨y, ys, rfl, d1.ext x2, d2⟩

theorem maskedH_spec {r : HRedactor} {g : Redactor} {k : String} (hr : Dict.get? RH k = some r)
    (hg : Dict.get? R k = some g) (P : Nat → Prop) (h : Mem) (v : Val) (j : Json) (hP : ∀ n, h.length ≤ n → P n)
    (hd : DenotesIn P h v j) :
    ∃ h' w, maskedH r v h = (.ok w, h') ∧ Extends h h' ∧ DenotesIn P h' w (masked g j) := by
  have hk := hR k
  rw [hr, hg] at hk
  cases r with
  | none =>
    cases g with
    | none => exact ⟨h, _, rfl, Extends.refl h, by unfold masked; rw [DenotesIn]⟩
    | some g => exact hk.elim
  | some f =>
    cases g with
    | none => exact hk.elim
    | some g =>
      have hi := hk P h v j hP hd
      unfold maskedH masked
      cases hgj : g j with
      | some w =>
        rw [hgj] at hi
        obtain ⟨h', v', e, x, d⟩ := hi
        refine ⟨h', v', ?_, x, ?_⟩
        · exact tryExcept_ok e
        · simp only [hgj]; exact d
      | none =>
        rw [hgj] at hi
        obtain ⟨er, h', e, x⟩ := hi
        refine ⟨h', .str "**REDACTEX**", ?_, x, ?_⟩
        · exact (tryExcept_error e).trans rfl
        · simp only [hgj]; rw [DenotesIn]

theorem items_spec (d : Nat) (h0 : Mem) (P : Nat → Prop) (hP : ∀ n, h0.length ≤ n → P n) (a : Nat)
    (ha : h0.length ≤ a) : ∀ (js : List (String × Json)), (∀ kj ∈ js, Good RH R d kj.2) →
    ∀ (done rest : List (String × Val)) (h : Mem), Extends h0 h →
      h[a]? = some (.dict (done ++ rest)) → Dict.WF (done ++ rest) → DenotesKvs P h0 rest js →
      ∃ h' new, forEach (itemH RH (redactH RH d) a) rest h = (.ok (), h') ∧
        Extends h0 h' ∧ (∀ n, n ≠ a → n < h.length → h'[n]? = h[n]?) ∧
        h'[a]? = some (.dict (done ++ new)) ∧
        DenotesKvs (fun n => P n ∧ n ≠ a) h' new (redactKvs R js)
  | [], _, done, rest, h, hx, hha, _, hd => by
    rw [DenotesKvs] at hd
    subst hd
    exact ⟨h, [], rfl, hx, fun _ _ _ => rfl, hha, by rw [redactKvs, DenotesKvs]⟩
  | (k, j) :: js, hg, done, rest, h, hx, hha, hwf, hd => by
    rw [DenotesKvs] at hd
    obtain ⟨x, rest', rfl, hdx, hdr⟩ := hd
    have hal : a < h.length := by
      rcases Nat.lt_or_ge a h.length with hl | hl
      · exact hl
      · rw [List.getElem?_eq_none hl] at hha; cases hha
    have hkd : k ∉ Dict.keys done := by
      intro hm
      unfold Dict.WF at hwf
      rw [Dict.keys_append, List.nodup_append] at hwf
      exact hwf.2.2 k hm k (by rw [Dict.keys_cons]; simp) rfl
    have hdxh : DenotesIn (fun n => P n ∧ n ≠ a) h x j := hdx.mono fun n o hp ho =>
      ⟨⟨hp, by
        rintro rfl
        rw [List.getElem?_eq_none ha] at ho
        cases ho⟩, hx.get ho⟩
    have hP' : ∀ n, h.length ≤ n → P n ∧ n ≠ a := fun n hn =>
      ⟨hP n (Nat.le_trans hx.length hn), by omega⟩
    -- one iteration
    have step : ∃ h1 w, itemH RH (redactH RH d) a (k, x) h = (.ok (), h1) ∧
        Extends h0 h1 ∧ h1[a]? = some (.dict ((done ++ [(k, w)]) ++ rest')) ∧
        (∀ n, n ≠ a → n < h.length → h1[n]? = h[n]?) ∧
        DenotesIn (fun n => P n ∧ n ≠ a) h1 w (entry R k j) := by
      -- storing a computed value
      have store : ∀ (m : PyM Mem Val) (h1 : Mem) (w : Val) (jw : Json), m h = (.ok w, h1) → Extends h h1 →
          DenotesIn (fun n => P n ∧ n ≠ a) h1 w jw →
          ∃ h2, (do let w ← m; setItem a k w : PyM Mem Unit) h = (.ok (), h2) ∧ Extends h0 h2 ∧
            h2[a]? = some (.dict ((done ++ [(k, w)]) ++ rest')) ∧
            (∀ n, n ≠ a → n < h.length → h2[n]? = h[n]?) ∧ DenotesIn (fun n => P n ∧ n ≠ a) h2 w jw := by
        intro m h1 w jw hm hxx hdw
        refine ⟨h1.set a (.dict ((done ++ [(k, w)]) ++ rest')), ?_, ?_, ?_, ?_, ?_⟩
        · rw [bind_ok hm]
          unfold setItem
          rw [hxx.get hha]
          simp only
          rw [set_middle hkd]
          simp
        · exact (hx.trans hxx).set ha _
        · rw [List.getElem?_set_self (Nat.lt_of_lt_of_le hal hxx.length)]
        · intro n hn hnl
          rw [List.getElem?_set_ne (Ne.symm hn), hxx n hnl]
        · exact hdw.mono fun n o hp ho => ⟨hp, by rw [List.getElem?_set_ne (Ne.symm hp.2)]; exact ho⟩
      unfold itemH
      have hsk : skippedV x = skipped j := skippedV_eq hdx
      by_cases hs : skipped j = true
      · refine ⟨h, x, ?_, hx, ?_, fun _ _ _ => rfl, ?_⟩
        · simp only [hsk, hs, if_true]; rfl
        · rw [hha]; simp
        · unfold entry; rw [if_pos hs]; exact hdxh
      · simp only [hsk]
        rw [if_neg hs]
        have hke : entry R k j = match Dict.get? R k with
            | some r => masked r j
            | none => redact R j := by unfold entry; rw [if_neg hs]
        cases hr : Dict.get? RH k with
        | some r =>
          cases hgk : Dict.get? R k with
          | none =>
            have := hR k
            rw [hr, hgk] at this
            cases r <;> exact this.elim
          | some g =>
            simp only
            obtain ⟨h1, w, e1, x1, d1⟩ := maskedH_spec hR hr hgk _ h x j hP' hdxh
            obtain ⟨h2, r1, r2, r3, r4, r5⟩ := store _ h1 w _ e1 x1 d1
            refine ⟨h2, w, r1, r2, r3, r4, ?_⟩
            rw [hke, hgk]; exact r5
        | none =>
          cases hgk : Dict.get? R k with
          | some g =>
            have := hR k
            rw [hr, hgk] at this
            exact this.elim
          | none =>
            simp only
            rw [hke, hgk, bind_apply, get_apply]
            simp only
            have hdr' := deref_of_denotes hdxh
            by_cases hdn : deref h x = none
            · rw [hdn]
              refine ⟨h, x, rfl, hx, ?_, fun _ _ _ => rfl, ?_⟩
              · rw [hha]; simp
              · cases j with
                | arr js => obtain ⟨xs, h1, _⟩ := hdr'; rw [hdn] at h1; cases h1
                | obj js => obtain ⟨xs, h1, _⟩ := hdr'; rw [hdn] at h1; cases h1
                | null => rw [redact]; exact hdxh
                | bool b => rw [redact]; exact hdxh
                | num n => rw [redact]; exact hdxh
                | str s => rw [redact]; exact hdxh
            · cases hdo : deref h x with
              | none => exact absurd hdo hdn
              | some o =>
                simp only
                obtain ⟨h1, w, e1, x1, d1⟩ := hg (k, j) (by simp) _ h x hP' hdxh
                obtain ⟨h2, r1, r2, r3, r4, r5⟩ := store _ h1 w _ e1 x1 d1
                exact ⟨h2, w, r1, r2, r3, r4, r5⟩
    obtain ⟨h1, w, e1, x1, a1, n1, d1⟩ := step
    have hwf1 : Dict.WF ((done ++ [(k, w)]) ++ rest') := by
      unfold Dict.WF at *
      simpa [Dict.keys_append, Dict.keys_cons] using hwf
    obtain ⟨h2, new, e2, x2, n2, a2, d2⟩ := items_spec d h0 P hP a ha js (fun kj hkj => hg kj (by simp [hkj]))
      (done ++ [(k, w)]) rest' h1 x1 a1 hwf1 hdr
    have hlen : h.length ≤ h1.length := by
      rcases Nat.lt_or_ge h1.length h.length with hl | hl
      · have hne : h1.length ≠ a := by
          intro e
          rw [← e, List.getElem?_eq_none (Nat.le_refl _)] at a1
          cases a1
        have := n1 h1.length hne hl
        rw [List.getElem?_eq_none (Nat.le_refl _), List.getElem?_eq_getElem hl] at this
        cases this
      · exact hl
    refine ⟨h2, (k, w) :: new, ?_, x2, ?_, ?_, ?_⟩
    · rw [forEach, bind'_eq, bind_ok e1]; exact e2
    · intro n hn hnl
      rw [n2 n hn (Nat.lt_of_lt_of_le hnl hlen), n1 n hn hnl]
    · rw [a2]; simp
    · rw [redactKvs, DenotesKvs]
      refine ⟨w, new, rfl, ?_, d2⟩
      refine d1.mono fun n o hp ho => ⟨hp, ?_⟩
      rw [n2 n hp.2 ?_]
      · exact ho
      · rcases Nat.lt_or_ge n h1.length with hl | hl
        · exact hl
        · rw [List.getElem?_eq_none hl] at ho; cases ho

omit hR in
theorem good_scalar (d : Nat) (j : Json) (hj : redact R j = j) (hs : ∀ P h v, DenotesIn P h v j → deref h v = none) :
    Good RH R (d + 1) j := by
  intro P h v _ hd
  refine ⟨h, v, ?_, Extends.refl h, by rw [hj]; exact hd⟩
  rw [redactH, bind_apply, get_apply]
  simp only [hs P h v hd]
  rfl

mutual
theorem redactH_spec : ∀ (j : Json) (d : Nat), height j ≤ d → Good RH R d j
  | j, 0, hh => by have := height_pos j; omega
  | .null, d + 1, _ => good_scalar d _ rfl fun P h v hd => by rw [DenotesIn] at hd; subst hd; rfl
  | .bool _, d + 1, _ => good_scalar d _ rfl fun P h v hd => by rw [DenotesIn] at hd; subst hd; rfl
  | .num _, d + 1, _ => good_scalar d _ rfl fun P h v hd => by rw [DenotesIn] at hd; subst hd; rfl
  | .str _, d + 1, _ => good_scalar d _ rfl fun P h v hd => by rw [DenotesIn] at hd; subst hd; rfl
  | .arr js, d + 1, hh => by
    intro P h v hP hd
    rw [height] at hh
    obtain ⟨xs, hx, hdl⟩ := deref_of_denotes hd
    obtain ⟨h1, ys, e1, x1, d1⟩ := mapH_spec d js (redactList_spec js d (by omega)) P h xs hP hdl
    refine ⟨h1 ++ [.list ys], .ref h1.length, ?_, x1.trans (Extends.append _ _), ?_⟩
    · rw [redactH, bind_apply, get_apply]
      simp only [hx]
      rw [bind_ok e1]
      rfl
    · rw [redact, DenotesIn]
      exact ⟨h1.length, ys, rfl, hP _ x1.length, by simp, d1.ext (Extends.append _ _)⟩
  | .obj js, d + 1, hh => by
    intro P h v hP hd
    rw [height] at hh
    obtain ⟨kvs, hx, hwf, hdl⟩ := deref_of_denotes hd
    obtain ⟨h1, new, e1, x1, n1, a1, d1⟩ := items_spec hR d h P hP h.length (Nat.le_refl _) js
      (redactKvs_spec js d (by omega)) [] kvs (h ++ [.dict kvs]) (Extends.append _ _) (by simp) hwf hdl
    refine ⟨h1, .ref h.length, ?_, x1, ?_⟩
    · rw [redactH, bind_apply, get_apply]
      simp only [hx]
      have ha : allocDict kvs h = (.ok h.length, h ++ [.dict kvs]) := rfl
      rw [bind_ok ha, bind_ok e1]
      rfl
    · rw [redact, DenotesIn]
      refine ⟨h.length, new, rfl, hP _ (Nat.le_refl _), by simpa using a1, ?_, ?_⟩
      · unfold Dict.WF at *
        rw [d1.keys, redactKvs_eq]
        have : Dict.keys (js.map fun kv => (kv.1, entry R kv.1 kv.2)) = Dict.keys js := by simp [Dict.keys]
        rw [this, ← hdl.keys]
        exact hwf
      · exact d1.mono fun n o hp ho => ⟨hp.1, ho⟩
theorem redactList_spec : ∀ (js : List Json) (d : Nat), heightList js ≤ d → ∀ j ∈ js, Good RH R d j
  | [], _, _, j, hj => by simp at hj
  | x :: xs, d, hh, j, hj => by
    rw [heightList] at hh
    rcases List.mem_cons.mp hj with h | h
    · rw [h]; exact redactH_spec x d (by omega)
    · exact redactList_spec xs d (by omega) j h
theorem redactKvs_spec : ∀ (js : List (String × Json)) (d : Nat), heightKvs js ≤ d → ∀ kj ∈ js, Good RH R d kj.2
  | [], _, _, j, hj => by simp at hj
  | (k, x) :: xs, d, hh, j, hj => by
    rw [heightKvs] at hh
    rcases List.mem_cons.mp hj with h | h
    · rw [h]; exact redactH_spec x d (by omega)
    · exact redactKvs_spec xs d (by omega) j h
end
end

/-! ## No existing object changes, whatever is passed and however the call ends -/

/-- The function changes no existing object. -/
def Harmless (f : Val → PyM Mem Val) : Prop := ∀ v h, Extends h (f v h).2

theorem bind_extends {α β : Type} {m : PyM Mem α} {f : α → PyM Mem β} {h0 h : Mem}
    (hm : Extends h0 (m h).2) (hf : ∀ a h', Extends h0 h' → Extends h0 (f a h').2) : Extends h0 ((m >>= f) h).2 := by
  rw [bind_apply]
  cases hr : m h with
  | mk r h' =>
    rw [hr] at hm
    cases r with
    | ok a => exact hf a h' hm
    | error e => exact hm

theorem mapH_extends {f : Val → PyM Mem Val} (hf : Harmless f) (h0 : Mem) : ∀ (xs : List Val) (h : Mem),
    Extends h0 h → Extends h0 (mapH f xs h).2
  | [], h, e => e
  | x :: xs, h, e => by
    rw [mapH]
    refine bind_extends (e.trans (hf x h)) fun y h1 e1 => ?_
    exact bind_extends (mapH_extends hf h0 xs h1 e1) fun ys h2 e2 => e2

theorem setItem_extends {h0 h : Mem} (e : Extends h0 h) {a : Nat} (ha : h0.length ≤ a) (k : String) (w : Val) :
    Extends h0 (setItem a k w h).2 := by
  unfold setItem
  split
  · exact e.set ha _
  · exact e

theorem maskedH_extends {R : HTable} (hR : ∀ k f, Dict.get? R k = some (some f) → Harmless f) {k : String}
    {r : HRedactor} (hr : Dict.get? R k = some r) {h0 h : Mem} (e : Extends h0 h) (v : Val) :
    Extends h0 (maskedH r v h).2 := by
  cases r with
  | none => exact e
  | some f =>
    have := hR k f hr v h
    show Extends h0 (tryExcept (f v) (fun _ => pure (.str "**REDACTEX**")) h).2
    cases hf : f v h with
    | mk r h' =>
      rw [hf] at this
      cases r with
      | ok w => rw [tryExcept_ok hf]; exact e.trans this
      | error er => rw [tryExcept_error hf]; exact e.trans this

theorem redactH_extends {R : HTable} (hR : ∀ k f, Dict.get? R k = some (some f) → Harmless f) :
    ∀ (d : Nat), Harmless (redactH R d)
  | 0, v, h => Extends.refl h
  | d + 1, v, h => by
    have ih := redactH_extends hR d
    rw [redactH, bind_apply, get_apply]
    simp only
    rcases hdv : deref h v with _ | (xs | kvs)
    · exact Extends.refl h
    · simp only
      refine bind_extends (mapH_extends ih h xs h (Extends.refl h)) fun ys h1 e1 => ?_
      exact e1.trans (Extends.append _ _)
    · simp only
      have ha : allocDict kvs h = (.ok h.length, h ++ [.dict kvs]) := rfl
      rw [bind_ok ha]
      have loop : ∀ (kvs : List (String × Val)) (h1 : Mem), Extends h h1 →
          Extends h (forEach (itemH R (redactH R d) h.length) kvs h1).2 := by
        intro kvs
        induction kvs with
        | nil => intro h1 e1; exact e1
        | cons kv kvs ihk =>
          intro h1 e1
          rw [forEach, bind'_eq]
          refine bind_extends ?_ fun _ h2 e2 => ihk h2 e2
          unfold itemH
          by_cases hs : skippedV kv.2 = true
          · rw [if_pos hs]; exact e1
          · rw [if_neg hs]
            cases hr : Dict.get? R kv.1 with
            | some r =>
              simp only
              exact bind_extends (maskedH_extends hR hr e1 _) fun w h2 e2 => setItem_extends e2 (Nat.le_refl _) _ _
            | none =>
              simp only
              rw [bind_apply, get_apply]
              simp only
              cases hd : deref h1 kv.2 with
              | none => exact e1
              | some o =>
                simp only
                exact bind_extends (e1.trans (ih _ _)) fun w h2 e2 => setItem_extends e2 (Nat.le_refl _) _ _
      exact bind_extends (loop kvs _ (Extends.append _ _)) fun _ h2 e2 => e2

/-! ## The legacy table -/

theorem Implements.harmless_on {f : Val → PyM Mem Val} {g : Json → Option Json} (hi : Implements f g) {P : Nat → Prop}
    {h : Mem} {v : Val} {j : Json} (hP : ∀ n, h.length ≤ n → P n) (hd : DenotesIn P h v j) :
    Extends h (f v h).2 := by
  have := hi P h v j hP hd
  cases hg : g j with
  | some w => rw [hg] at this; obtain ⟨h', v', e, x, _⟩ := this; rw [e]; exact x
  | none => rw [hg] at this; obtain ⟨er, h', e, x⟩ := this; rw [e]; exact x

theorem truthyV_eq {P : Nat → Prop} {h : Mem} {v : Val} {j : Json} (hd : DenotesIn P h v j) :
    truthyV h v = j.truthy := by
  cases j with
  | null => rw [DenotesIn] at hd; subst hd; rfl
  | bool b => rw [DenotesIn] at hd; subst hd; rfl
  | num n => rw [DenotesIn] at hd; subst hd; rfl
  | str s => rw [DenotesIn] at hd; subst hd; rfl
  | arr js =>
    rw [DenotesIn] at hd
    obtain ⟨a, xs, h1, _, h3, h4⟩ := hd
    subst h1
    unfold truthyV Json.truthy
    simp only [h3]
    cases js <;> rw [DenotesList] at h4
    · subst h4; rfl
    · obtain ⟨x, xs', rfl, _⟩ := h4; rfl
  | obj js =>
    rw [DenotesIn] at hd
    obtain ⟨a, xs, h1, _, h3, _, h4⟩ := hd
    subst h1
    unfold truthyV Json.truthy
    simp only [h3]
    cases js with
    | nil => rw [DenotesKvs] at h4; subst h4; rfl
    | cons kj js =>
      obtain ⟨k, j⟩ := kj
      rw [DenotesKvs] at h4
      obtain ⟨x, xs', rfl, _⟩ := h4; rfl

theorem const_implements (v : Val) (j : Json) (hv : ∀ P h, DenotesIn P h v j) :
    Implements (fun _ => pure v) (fun _ => some j) :=
  fun P h _ _ _ _ => ⟨h, v, rfl, Extends.refl h, hv P h⟩

theorem nameLike_implements (text : String) :
    Implements (fun x => do let h ← getS; pure (.str (if truthyV h x then text else "")))
      (fun x => some (.str (if x.truthy then text else ""))) := by
  intro P h v j _ hd
  refine ⟨h, _, rfl, Extends.refl h, ?_⟩
  rw [truthyV_eq hd, DenotesIn]

theorem idLike_implements :
    Implements (fun x => match x with
        | .str s => pure (.str ("REDACTED_" ++ String.ofList (s.toList.drop 9)))
        | _ => raise (.other "TypeError"))
      (fun x => match x with
        | .str s => some (.str ("REDACTED_" ++ String.ofList (s.toList.drop 9)))
        | _ => none) := by
  intro P h v j _ hd
  cases j <;> rw [DenotesIn] at hd
  · subst hd; exact ⟨_, h, rfl, Extends.refl h⟩
  · subst hd; exact ⟨_, h, rfl, Extends.refl h⟩
  · subst hd; exact ⟨_, h, rfl, Extends.refl h⟩
  · subst hd; exact ⟨h, _, rfl, Extends.refl h, by rw [DenotesIn]⟩
  · obtain ⟨a, xs, h1, _⟩ := hd; subst h1; exact ⟨_, h, rfl, Extends.refl h⟩
  · obtain ⟨a, xs, h1, _⟩ := hd; subst h1; exact ⟨_, h, rfl, Extends.refl h⟩

/-- Printing a list on the heap prints what it reads as. -/
def Prints (printedV : Mem → List Val → String) (printed : List Json → String) : Prop :=
  ∀ P h xs js, DenotesList P h xs js → printedV h xs = printed js

theorem DenotesList.length {P : Nat → Prop} {h : Mem} : ∀ {js : List Json} {xs : List Val}, DenotesList P h xs js →
    xs.length = js.length
  | [], xs, d => by rw [DenotesList] at d; rw [d]; rfl
  | j :: js, xs, d => by
    rw [DenotesList] at d
    obtain ⟨x, xs', rfl, _, d'⟩ := d
    simp [DenotesList.length d']

theorem DenotesList.take {P : Nat → Prop} {h : Mem} : ∀ {js : List Json} {xs : List Val} (n : Nat),
    DenotesList P h xs js → DenotesList P h (xs.take n) (js.take n)
  | _, _, 0, _ => by rw [List.take_zero, List.take_zero, DenotesList]
  | [], xs, n + 1, d => by rw [DenotesList] at d; rw [d, List.take_nil, List.take_nil, DenotesList]
  | j :: js, xs, n + 1, d => by
    rw [DenotesList] at d
    obtain ⟨x, xs', rfl, dx, d'⟩ := d
    rw [List.take_succ_cons, List.take_succ_cons, DenotesList]
    exact ⟨x, _, rfl, dx, DenotesList.take n d'⟩

theorem DenotesIn.str_iff {P : Nat → Prop} {h : Mem} {v : Val} {j : Json} (hd : DenotesIn P h v j) (s : String) :
    v = .str s ↔ j = .str s := by
  cases j <;> rw [DenotesIn] at hd <;> first
    | (subst hd; simp)
    | (obtain ⟨a, xs, h1, _⟩ := hd; subst h1; simp)

theorem DenotesList.mem_str {P : Nat → Prop} {h : Mem} (s : String) : ∀ {js : List Json} {xs : List Val},
    DenotesList P h xs js → (Val.str s ∈ xs ↔ Json.str s ∈ js)
  | [], xs, d => by rw [DenotesList] at d; rw [d]; simp
  | j :: js, xs, d => by
    rw [DenotesList] at d
    obtain ⟨x, xs', rfl, dx, d'⟩ := d
    rw [List.mem_cons, List.mem_cons, DenotesList.mem_str s d']
    have := DenotesIn.str_iff dx s
    constructor
    · rintro (h1 | h1)
      · exact Or.inl (this.mp h1.symm).symm
      · exact Or.inr h1
    · rintro (h1 | h1)
      · exact Or.inl (this.mpr h1.symm).symm
      · exact Or.inr h1

theorem macLike_implements {printedV : Mem → List Val → String} {printed : List Json → String}
    (hp : Prints printedV printed) {f : Val → PyM Mem Val} (hf : macLikeH printedV = some f)
    {g : Json → Option Json} (hg : macLike printed = some g) : Implements f g := by
  unfold macLikeH at hf
  unfold macLike at hg
  simp only [Option.some.injEq] at hf hg
  subst hf
  subst hg
  intro P h v j _ hd
  have hdr := deref_of_denotes hd
  cases j with
  | null => rw [DenotesIn] at hd; subst hd; exact ⟨_, h, rfl, Extends.refl h⟩
  | bool b => rw [DenotesIn] at hd; subst hd; exact ⟨_, h, rfl, Extends.refl h⟩
  | num n => rw [DenotesIn] at hd; subst hd; exact ⟨_, h, rfl, Extends.refl h⟩
  | str s => rw [DenotesIn] at hd; subst hd; exact ⟨h, _, rfl, Extends.refl h, by rw [DenotesIn]⟩
  | arr js =>
    obtain ⟨xs, hx, hl⟩ := hdr
    rw [DenotesIn] at hd
    obtain ⟨a, _, h1, _⟩ := hd
    subst h1
    simp only
    rw [bind_apply, get_apply]
    simp only [hx, DenotesList.length hl]
    by_cases h12 : js.length = 12
    · rw [if_pos h12, if_pos h12]
      refine ⟨h, _, rfl, Extends.refl h, ?_⟩
      rw [DenotesIn, hp P h _ _ (DenotesList.take 6 hl)]
    · rw [if_neg h12, if_neg h12]
      refine ⟨h, _, rfl, Extends.refl h, ?_⟩
      rw [DenotesIn, hp P h _ _ (DenotesList.take 8 hl)]
      have := DenotesList.mem_str ":" hl
      by_cases hm : Json.str ":" ∈ js
      · rw [if_pos hm, if_pos (this.mpr hm)]
      · rw [if_neg hm, if_neg (fun hh => hm (this.mp hh))]
  | obj js =>
    obtain ⟨kvs, hx, _, hl⟩ := hdr
    rw [DenotesIn] at hd
    obtain ⟨a, _, h1, _⟩ := hd
    subst h1
    simp only
    rw [bind_apply, get_apply]
    simp only [hx]
    exact ⟨_, h, rfl, Extends.refl h⟩

theorem DenotesKvs.get? {P : Nat → Prop} {h : Mem} (k : String) : ∀ {js : List (String × Json)}
    {kvs : List (String × Val)}, DenotesKvs P h kvs js →
    match Dict.get? kvs k, Dict.get? js k with
    | some v, some j => DenotesIn P h v j
    | none, none => True
    | _, _ => False
  | [], kvs, d => by rw [DenotesKvs] at d; subst d; exact trivial
  | (l, j) :: js, kvs, d => by
    rw [DenotesKvs] at d
    obtain ⟨x, xs', rfl, dx, d'⟩ := d
    simp only [Dict.get?_cons]
    by_cases hk : l = k
    · simp only [hk, if_true]; exact dx
    · simp only [hk, if_false]; exact DenotesKvs.get? k d'

theorem DenotesKvs.set {P : Nat → Prop} {h : Mem} (k : String) {w : Val} {jw : Json} (hw : DenotesIn P h w jw) :
    ∀ {js : List (String × Json)} {kvs : List (String × Val)}, DenotesKvs P h kvs js →
    DenotesKvs P h (Dict.set kvs k w) (Dict.set js k jw)
  | [], kvs, d => by
    rw [DenotesKvs] at d
    subst d
    show DenotesKvs P h [(k, w)] [(k, jw)]
    rw [DenotesKvs]
    exact ⟨w, [], rfl, hw, by rw [DenotesKvs]⟩
  | (l, j) :: js, kvs, d => by
    rw [DenotesKvs] at d
    obtain ⟨x, xs', rfl, dx, d'⟩ := d
    unfold Dict.set
    by_cases hk : l = k
    · simp only [hk, if_true]; rw [DenotesKvs]; exact ⟨w, xs', rfl, hw, d'⟩
    · simp only [hk, if_false]; rw [DenotesKvs]; exact ⟨x, _, rfl, dx, DenotesKvs.set k hw d'⟩

theorem maskChildH_spec (index : Nat) : Implements (maskChildH index) (maskChild index) := by
  intro P h v j hP hd
  have hdr := deref_of_denotes hd
  unfold maskChildH maskChild
  rw [bind_apply, get_apply]
  cases j with
  | null => simp only at hdr; simp only [hdr]; exact ⟨_, h, rfl, Extends.refl h⟩
  | bool b => simp only at hdr; simp only [hdr]; exact ⟨_, h, rfl, Extends.refl h⟩
  | num n => simp only at hdr; simp only [hdr]; exact ⟨_, h, rfl, Extends.refl h⟩
  | str s => simp only at hdr; simp only [hdr]; exact ⟨_, h, rfl, Extends.refl h⟩
  | arr js => obtain ⟨xs, hx, hl⟩ := hdr; simp only [hx]; exact ⟨_, h, rfl, Extends.refl h⟩
  | obj js =>
    obtain ⟨kvs, hx, hwf, hl⟩ := hdr
    simp only [hx]
    generalize hid : "SCRUBBED_CHILD_DEVICE_ID_" ++ toString (index + 1) = idText
    generalize hal : "#MASKED_NAME# " ++ toString (index + 1) = alText
    have ha : allocDict (Dict.set kvs "id" (.str idText)) h =
      (.ok h.length, h ++ [.dict (Dict.set kvs "id" (.str idText))]) := rfl
    rw [bind_ok ha]
    have hx1 : Extends h (h ++ [Obj.dict (Dict.set kvs "id" (.str idText))]) := Extends.append _ _
    have hd1 : DenotesKvs P (h ++ [Obj.dict (Dict.set kvs "id" (.str idText))]) (Dict.set kvs "id" (.str idText))
        (Dict.set js "id" (.str idText)) :=
      DenotesKvs.set "id" (by rw [DenotesIn]) (hl.ext hx1)
    have hplain : DenotesIn P (h ++ [Obj.dict (Dict.set kvs "id" (.str idText))]) (.ref h.length)
        (.obj (Dict.set js "id" (.str idText))) := by
      rw [DenotesIn]
      exact ⟨h.length, _, rfl, hP _ (Nat.le_refl _), by simp, Dict.WF_set hwf _ _, hd1⟩
    have hg := DenotesKvs.get? "alias" hl
    cases hka : Dict.get? kvs "alias" with
    | none =>
      cases hja : Dict.get? js "alias" with
      | some ja => rw [hka, hja] at hg; exact hg.elim
      | none => exact ⟨_, _, rfl, hx1, hplain⟩
    | some al =>
      cases hja : Dict.get? js "alias" with
      | none => rw [hka, hja] at hg; exact hg.elim
      | some ja =>
        rw [hka, hja] at hg
        simp only [truthyV_eq hg]
        by_cases ht : ja.truthy = true
        · rw [if_pos ht, if_pos ht]
          have hs : setItem h.length "alias" (.str alText) (h ++ [Obj.dict (Dict.set kvs "id" (.str idText))]) =
              (.ok (), (h ++ [Obj.dict (Dict.set kvs "id" (.str idText))]).set h.length
                (.dict (Dict.set (Dict.set kvs "id" (.str idText)) "alias" (.str alText)))) := by
            unfold setItem
            rw [List.getElem?_concat_length]
          rw [bind_ok hs]
          have hx2 : Extends h ((h ++ [Obj.dict (Dict.set kvs "id" (.str idText))]).set h.length
                (.dict (Dict.set (Dict.set kvs "id" (.str idText)) "alias" (.str alText)))) :=
            hx1.set (Nat.le_refl _) _
          refine ⟨_, _, rfl, hx2, ?_⟩
          rw [DenotesIn]
          refine ⟨h.length, Dict.set (Dict.set kvs "id" (.str idText)) "alias" (.str alText), rfl,
            hP _ (Nat.le_refl _), ?_, Dict.WF_set (Dict.WF_set hwf _ _) _ _, ?_⟩
          · rw [List.getElem?_set_self (by simp)]
          · exact DenotesKvs.set "alias" (by rw [DenotesIn])
              (DenotesKvs.set "id" (by rw [DenotesIn]) (hl.ext hx2))
        · rw [if_neg ht, if_neg ht]
          exact ⟨_, _, rfl, hx1, hplain⟩

theorem maskChildrenFromH_spec : ∀ (js : List Json) (index : Nat) (P : Nat → Prop) (h : Mem) (xs : List Val),
    (∀ n, h.length ≤ n → P n) → DenotesList P h xs js →
    match maskChildrenFrom index js with
    | some ws => ∃ h' ys, maskChildrenFromH index xs h = (.ok ys, h') ∧ Extends h h' ∧ DenotesList P h' ys ws
    | none => ∃ e h', maskChildrenFromH index xs h = (.error e, h') ∧ Extends h h'
  | [], index, P, h, xs, _, d => by
    rw [DenotesList] at d
    subst d
    exact ⟨h, [], rfl, Extends.refl h, by rw [DenotesList]⟩
  | j :: js, index, P, h, xs, hP, d => by
    rw [DenotesList] at d
    obtain ⟨x, xs', rfl, dx, d'⟩ := d
    rw [maskChildrenFrom, maskChildrenFromH]
    have h1 := maskChildH_spec index P h x j hP dx
    cases hm : maskChild index j with
    | none =>
      rw [hm] at h1
      obtain ⟨e, h', e1, x1⟩ := h1
      rw [bind_error e1]
      exact ⟨e, h', rfl, x1⟩
    | some w =>
      rw [hm] at h1
      obtain ⟨h1', y, e1, x1, d1⟩ := h1
      rw [bind_ok e1]
      have h2 := maskChildrenFromH_spec js (index + 1) P h1' xs' (fun n hn => hP n (Nat.le_trans x1.length hn))
        (d'.ext x1)
      cases hm2 : maskChildrenFrom (index + 1) js with
      | none =>
        rw [hm2] at h2
        obtain ⟨e, h', e2, x2⟩ := h2
        rw [bind_error e2]
        exact ⟨e, h', rfl, x1.trans x2⟩
      | some ws =>
        rw [hm2] at h2
        obtain ⟨h2', ys, e2, x2, d2⟩ := h2
        rw [bind_ok e2]
        refine ⟨h2', y :: ys, rfl, x1.trans x2, ?_⟩
        rw [DenotesList]
        exact ⟨y, ys, rfl, d1.ext x2, d2⟩

theorem maskChildrenFrom_str : ∀ (ss : List String) (n : Nat), ss ≠ [] →
    maskChildrenFrom n (ss.map fun s => .str s) = none
  | [], _, h => absurd rfl h
  | s :: ss, n, _ => rfl

theorem maskChildren_implements {f : Val → PyM Mem Val} (hf : maskChildrenH = some f)
    {g : Json → Option Json} (hg : maskChildren = some g) : Implements f g := by
  unfold maskChildrenH at hf
  unfold maskChildren at hg
  simp only [Option.some.injEq] at hf hg
  subst hf
  subst hg
  intro P h v j hP hd
  have hdr := deref_of_denotes hd
  have hnil : DenotesIn P (h ++ [.list []]) (.ref h.length) (.arr []) := by
    rw [DenotesIn]
    exact ⟨h.length, [], rfl, hP _ (Nat.le_refl _), by simp, by rw [DenotesList]⟩
  cases j with
  | null => rw [DenotesIn] at hd; subst hd; exact ⟨_, h, rfl, Extends.refl h⟩
  | bool b => rw [DenotesIn] at hd; subst hd; exact ⟨_, h, rfl, Extends.refl h⟩
  | num n => rw [DenotesIn] at hd; subst hd; exact ⟨_, h, rfl, Extends.refl h⟩
  | str s =>
    rw [DenotesIn] at hd
    subst hd
    simp only
    rw [bind_apply, get_apply]
    by_cases hs : s = ""
    · subst hs
      exact ⟨_, _, rfl, Extends.append _ _, hnil⟩
    · have hne : s.toList.map (fun c => String.ofList [c]) ≠ [] := by
        simpa using hs
      have hm : maskChildrenFrom 0 (s.toList.map fun c => .str (String.ofList [c])) = none := by
        have := maskChildrenFrom_str (s.toList.map fun c => String.ofList [c]) 0 hne
        rwa [List.map_map] at this
      have hg : (do let xs ← iterated (.str s); let ys ← maskChildrenFrom 0 xs; pure (Json.arr ys)) = none := by
        show (maskChildrenFrom 0 (s.toList.map fun c => .str (String.ofList [c]))).bind _ = none
        rw [hm]; rfl
      rw [hg]
      refine ⟨.other "TypeError", h, ?_, Extends.refl h⟩
      simp only [if_neg hs]
      rfl
  | arr js =>
    obtain ⟨xs, hx, hl⟩ := hdr
    rw [DenotesIn] at hd
    obtain ⟨a, _, h0, _⟩ := hd
    subst h0
    simp only
    rw [bind_apply, get_apply]
    simp only [hx]
    have h1 := maskChildrenFromH_spec js 0 P h xs hP hl
    have hg : (do let xs ← iterated (.arr js); let ys ← maskChildrenFrom 0 xs; pure (Json.arr ys)) =
        (maskChildrenFrom 0 js).map Json.arr := by
      show (maskChildrenFrom 0 js).bind _ = _
      cases maskChildrenFrom 0 js <;> rfl
    rw [hg]
    cases hm : maskChildrenFrom 0 js with
    | none =>
      rw [hm] at h1
      obtain ⟨e, h', e1, x1⟩ := h1
      rw [bind_error e1]
      exact ⟨e, h', rfl, x1⟩
    | some ws =>
      rw [hm] at h1
      obtain ⟨h', ys, e1, x1, d1⟩ := h1
      rw [bind_ok e1]
      refine ⟨_, _, rfl, x1.trans (Extends.append _ _), ?_⟩
      rw [DenotesIn]
      exact ⟨h'.length, ys, rfl, hP _ x1.length, by simp, d1.ext (Extends.append _ _)⟩
  | obj js =>
    obtain ⟨kvs, hx, _, hl⟩ := hdr
    rw [DenotesIn] at hd
    obtain ⟨a, _, h0, _⟩ := hd
    subst h0
    simp only
    rw [bind_apply, get_apply]
    simp only [hx]
    cases js with
    | nil =>
      rw [DenotesKvs] at hl
      subst hl
      exact ⟨_, _, rfl, Extends.append _ _, hnil⟩
    | cons kj js =>
      obtain ⟨k, j⟩ := kj
      rw [DenotesKvs] at hl
      obtain ⟨x, xs', rfl, _⟩ := hl
      exact ⟨_, h, rfl, Extends.refl h⟩

theorem implementsTable_cons {RH : HTable} {R : Table} (k : String) {f : Val → PyM Mem Val} {g : Json → Option Json}
    (hfg : Implements f g) (ht : ImplementsTable RH R) :
    ImplementsTable ((k, some f) :: RH) ((k, some g) :: R) := by
  intro l
  rw [Dict.get?_cons, Dict.get?_cons]
  by_cases hk : k = l
  · simp only [hk, if_true]; exact hfg
  · simp only [hk, if_false]; exact ht l

theorem iotTable_implements {printedV : Mem → List Val → String} {printed : List Json → String}
    (hp : Prints printedV printed) : ImplementsTable (iotTableH printedV) (iotTable printed) := by
  have hnum : ∀ (P : Nat → Prop) (h : Mem) (n : Int), DenotesIn P h (.num n) (.num n) := by
    intros; rw [DenotesIn]
  have hstr : ∀ (P : Nat → Prop) (h : Mem) (s : String), DenotesIn P h (.str s) (.str s) := by
    intros; rw [DenotesIn]
  have hzero := const_implements (.num 0) (.num 0) fun P h => hnum P h 0
  refine implementsTable_cons _ hzero (implementsTable_cons _ hzero (implementsTable_cons _ hzero
    (implementsTable_cons _ hzero (implementsTable_cons _ idLike_implements
    (implementsTable_cons _ (maskChildren_implements rfl rfl) (implementsTable_cons _ (nameLike_implements _)
    (implementsTable_cons _ (macLike_implements hp rfl rfl) (implementsTable_cons _ (macLike_implements hp rfl rfl)
    (implementsTable_cons _ (nameLike_implements _) (implementsTable_cons _ idLike_implements
    (implementsTable_cons _ (const_implements _ _ fun P h => hstr P h _)
    (implementsTable_cons _ idLike_implements fun _ => trivial))))))))))))

end Kasa.Redact
