import Verif.Props.SmartProtocol
/-!
# What holds of every query whatever the transport does
-/

namespace Kasa.Smart
open PyM SmartSpec

/-- The params in a message satisfy `P`. -/
def WireAll (P : Json → Prop) : Wire → Prop
  | .single r => ∀ p, r.params = some p → P p
  | .multi rs => ∀ r ∈ rs, ∀ p, r.params = some p → P p
  | .raw j => P j

/-- The params in a query satisfy `P`. -/
def QueryAll (P : Json → Prop) : Query → Prop
  | .name _ => True
  | .dict requests => ∀ kv ∈ requests, P kv.2

section
variable {σ : Type} (t : Transport σ) {R : St σ → St σ → Prop} {P : Json → Prop}

/-- What a transport has to keep so that queries keep it. -/
structure Keeps (t : Transport σ) (P : Json → Prop) (R : St σ → St σ → Prop) : Prop where
  refl : ∀ s, R s s
  trans : ∀ a b c, R a b → R b c → R a c
  page : ∀ n : Nat, P (.obj [("start_index", .num n)])
  single : ∀ r, WireAll P (.single r) → Rel R (send t (.single r))
  batch : ∀ rs, WireAll P (.multi rs) → Rel R (send t (.multi rs) >>= fun resp => checkBatch resp >>= fun _ => pure resp)
  reset : ∀ s, R s { s with world := (t.reset s.world).2 }

variable (k : Keeps t P R)
include k

theorem executeSingle_keeps (m : String) (p : Json) (hp : p.truthy = true → P p) : Rel R (executeSingle t m p) := by
  unfold executeSingle
  refine Rel.bind k.trans (k.single _ ?_) fun resp => Rel.bind k.trans (Rel.lift k.refl _) fun _ => Rel.pure k.refl _
  intro q hq
  unfold mkRequest at hq
  simp only at hq
  split at hq
  · next h => cases hq; exact hp h
  · cases hq

theorem fetchPage_keeps (m : String) (n : Nat) : Rel R (fetchPage t m n) := executeSingle_keeps t k m _ fun _ => k.page n

theorem pages_keeps (fetch : Nat → PyM (St σ) Json) (hf : ∀ n, Rel R (fetch n)) (name : String)
    (sum : Int) (items : List Json) : Rel R (pages fetch name sum items) := by
  intro s
  induction items, s using pages.induct (fetch := fetch) (name := name) (sum := sum) with
  | case1 items s h e s' he =>
    rw [pages]; simp only [h, dif_pos, he]
    have := hf items.length s; rw [he] at this; exact this
  | case2 items s h nb s' he e hn =>
    rw [pages]; simp only [h, dif_pos, he, hn]
    have := hf items.length s; rw [he] at this; exact this
  | case3 items s h nb s' he hn =>
    rw [pages]; simp only [h, dif_pos, he, hn]
    have := hf items.length s; rw [he] at this; exact this
  | case4 items s h nb s' he x xs hn ih =>
    rw [pages]; simp only [h, dif_pos, he, hn]
    have := hf items.length s; rw [he] at this
    exact k.trans _ _ _ this ih
  | case5 items s h =>
    rw [pages]; simp only [h, dif_neg, not_false_eq_true]; exact k.refl s

theorem handleResponseLists_keeps (fetch : Nat → PyM (St σ) Json) (hf : ∀ n, Rel R (fetch n))
    (result : Json) : Rel R (handleResponseLists fetch result) := by
  unfold handleResponseLists
  split
  · split
    · exact Rel.pure k.refl _
    · exact Rel.pure k.refl _
    · exact Rel.pure k.refl _
    · split
      · exact Rel.raise k.refl _
      · refine Rel.bind k.trans (Rel.lift k.refl _) fun n => ?_
        refine Rel.bind k.trans (pages_keeps t k fetch hf _ _ _) fun _ => ?_
        exact Rel.pure k.refl _
  · exact Rel.pure k.refl _

/-- Further pages can be asked for. -/
def PagerKeeps (R : St σ → St σ → Prop) (pager : Option (String → Json → Nat → PyM (St σ) Json)) : Prop :=
  ∀ f, pager = some f → ∀ m p n, Rel R (f m p n)

theorem pagerKeeps : PagerKeeps R (some fun m _ n => fetchPage t m n) := by
  rintro f hf m p n
  cases hf
  exact fetchPage_keeps t k m n

variable {pager : Option (String → Json → Nat → PyM (St σ) Json)} (hpager : PagerKeeps R pager)
include hpager

theorem completeEntry_keeps (m : String) (p : Json) (e : Entry) :
    Rel R (completeEntry pager m p e) := by
  unfold completeEntry
  split
  · next heq =>
    split
    · refine Rel.bind k.trans (handleResponseLists_keeps t k _ (fun n => hpager _ rfl m p n) _) fun _ => ?_
      exact Rel.pure k.refl _
    · exact Rel.pure k.refl _
  · exact Rel.pure k.refl _

theorem processResponse_keeps (requests : Dict String Json) (raise : Bool) (acc : Dict String Entry) (resp : Json) :
    Rel R (processResponse pager requests raise acc resp) := by
  unfold processResponse
  split
  · split
    · exact Rel.pure k.refl _
    · split
      · exact Rel.pure k.refl _
      · refine Rel.bind k.trans (Rel.lift k.refl _) fun _ => ?_
        refine Rel.bind k.trans (completeEntry_keeps t k hpager _ _ _) fun _ => ?_
        exact Rel.pure k.refl _
    · split
      · exact Rel.raise k.refl _
      · exact Rel.pure k.refl _
  · exact Rel.raise k.refl _

omit hpager in
theorem mkRequest_all {m : String} {p : Json} (hp : P p) : ∀ q, (mkRequest m p).params = some q → P q := by
  intro q hq
  unfold mkRequest at hq
  simp only at hq
  split at hq
  · cases hq; exact hp
  · cases hq

theorem executeMultiple_keeps (requests : Dict String Json) (hq : ∀ kv ∈ requests, P kv.2) :
    Rel R (executeMultiple t pager requests) := by
  have hm : ∀ r ∈ multiRequests requests, ∀ p, r.params = some p → P p := by
    intro r hr
    unfold multiRequests at hr
    obtain ⟨kv, hkv, rfl⟩ := List.mem_map.1 hr
    exact mkRequest_all t k (hq kv (List.mem_filter.1 hkv).1)
  have hfold : ∀ (raise : Bool) (l : List Request), (∀ r ∈ l, ∀ p, r.params = some p → P p) → ∀ acc,
      Rel R (foldM (queryUnbatched t raise) acc l) := by
    intro raise l
    induction l with
    | nil => intro _ acc; exact Rel.pure k.refl _
    | cons r l ih =>
      intro hl acc
      rw [foldM_cons]
      refine Rel.bind k.trans ?_ fun a => ih (fun r hr => hl r (.tail _ hr)) a
      unfold queryUnbatched
      exact Rel.bind k.trans (k.single r (hl r (.head _))) fun _ => Rel.bind k.trans (Rel.lift k.refl _) fun _ =>
        Rel.bind k.trans (Rel.lift k.refl _) fun _ => Rel.pure k.refl _
  have hmissing : ∀ (raise : Bool) (l : Dict String Json), (∀ kv ∈ l, P kv.2) → ∀ acc,
      Rel R (foldM (queryMissing t raise) acc l) := by
    intro raise l
    induction l with
    | nil => intro _ acc; exact Rel.pure k.refl _
    | cons kv l ih =>
      intro hl acc
      rw [foldM_cons]
      refine Rel.bind k.trans ?_ fun a => ih (fun r hr => hl r (.tail _ hr)) a
      unfold queryMissing
      split
      · exact Rel.pure k.refl _
      · exact Rel.bind k.trans (k.single _ (mkRequest_all t k (hl kv (.head _)))) fun _ => Rel.bind k.trans (Rel.lift k.refl _) fun _ =>
          Rel.pure k.refl _
  unfold executeMultiple
  refine Rel.bind k.trans (Rel.get k.refl) fun s => ?_
  simp only
  split
  · exact hfold _ _ hm _
  · refine Rel.bind k.trans (Rel.foldM k.refl k.trans ?_ _ _) fun acc => hmissing _ _ hq _
    intro acc i
    have hassoc : sendBatch t pager requests (requests.length == 1) (multiRequests requests) s.batchSize acc i =
        ((send t (.multi (((multiRequests requests).drop i).take s.batchSize)) >>= fun resp => checkBatch resp >>= fun _ => pure resp)
          >>= fun resp => lift (batchResponses resp) >>= fun responses =>
            foldM (processResponse pager requests (requests.length == 1)) acc responses) := by
      funext s0
      unfold sendBatch
      simp only [bind_apply]
      cases (send t (Wire.multi (((multiRequests requests).drop i).take s.batchSize)) s0) with
      | mk o s1 =>
      cases o with
      | error e => rfl
      | ok resp =>
        simp only
        cases (checkBatch resp s1) with
        | mk o s2 => cases o <;> rfl
    rw [hassoc]
    refine Rel.bind k.trans (k.batch _ ?_) fun resp => Rel.bind k.trans (Rel.lift k.refl _) fun _ =>
      Rel.foldM k.refl k.trans (fun acc x => processResponse_keeps t k hpager _ _ acc x) _ _
    intro r hr
    exact hm r (List.mem_of_mem_drop (List.mem_of_mem_take hr))

omit hpager in
theorem executeQuery_keeps (q : Query) (hq : QueryAll P q) : Rel R (executeQuery t q) := by
  have one : ∀ m p, (p.truthy = true → P p) → Rel R (do
      let result ← executeSingle t m p
      let entry ← completeEntry (some fun m _ n => fetchPage t m n) m p (.value result)
      pure [(m, entry)]) := fun m p hp =>
    Rel.bind k.trans (executeSingle_keeps t k m p hp) fun _ => Rel.bind k.trans (completeEntry_keeps t k (pagerKeeps t k) _ _ _) fun _ =>
      Rel.pure k.refl _
  cases q with
  | name m => rw [executeQuery_name]; exact one m .null fun h => by cases h
  | dict requests =>
    by_cases hl : requests.length = 1
    · match requests, hl with
      | [(m, p)], _ => rw [executeQuery_one]; exact one m p fun _ => hq (m, p) (.head _)
    · rw [executeQuery_many t requests hl]
      exact executeMultiple_keeps t k (pagerKeeps t k) requests hq

omit hpager in
/-- Whatever the transport keeps, a query keeps. -/
theorem query_keeps (q : Query) (hq : QueryAll P q) (rc : Int) : Rel R (query t q rc) := by
  rw [query_unfold]
  refine Retry.loop_rel k.refl k.trans true _ ?_ ?_ ?_ rc _
  · intro _; exact executeQuery_keeps t k q hq
  · intro s; exact k.reset s
  · intro s; exact k.refl s

end

/-! ## A transport that answers more often -/

section
variable {σ α β : Type} (I : σ → Prop)

/-- Whenever `m` returns, so does `m'`, with the same value in the same state, and `I` still holds of the world. -/
def Below (m m' : PyM (St σ) α) : Prop :=
  ∀ s, I s.world → ∀ a s', m s = (.ok a, s') → m' s = (.ok a, s') ∧ I s'.world

variable {I}

theorem Below.same {m : PyM (St σ) α} (h : ∀ s, (m s).2.world = s.world) : Below I m m := by
  intro s hs a s' he
  refine ⟨he, ?_⟩
  have := h s
  rw [he] at this
  rw [this]
  exact hs

theorem Below.pure (a : α) : Below I (Pure.pure a) (Pure.pure a) := Below.same fun _ => rfl

theorem Below.raise (e : Exc) : Below I (PyM.raise e : PyM (St σ) α) (PyM.raise e) := Below.same fun _ => rfl

theorem Below.lift (o : Except Exc α) : Below I (PyM.lift o) (PyM.lift o) := Below.same fun s => by rw [lift_apply]

theorem Below.bind {m m' : PyM (St σ) α} {f f' : α → PyM (St σ) β} (hm : Below I m m') (hf : ∀ a, Below I (f a) (f' a)) :
    Below I (m >>= f) (m' >>= f') := by
  intro s hs b s'' h
  obtain ⟨a, s', h1, h2⟩ := bind_eq_ok h
  obtain ⟨h3, h4⟩ := hm s hs a s' h1
  rw [bind_ok h3]
  exact hf a s' h4 b s'' h2

theorem Below.foldM {ι : Type} {f f' : α → ι → PyM (St σ) α} (l : List ι) (h : ∀ a, ∀ i ∈ l, Below I (f a i) (f' a i)) (a : α) :
    Below I (PyM.foldM f a l) (PyM.foldM f' a l) := by
  induction l generalizing a with
  | nil => exact Below.pure _
  | cons i l ih =>
    rw [foldM_cons, foldM_cons]
    exact Below.bind (h a i (.head _)) fun a => ih (fun a i hi => h a i (.tail _ hi)) a

theorem checkBatch_world (resp : Json) (s : St σ) : (checkBatch resp s).2.world = s.world := by
  rw [checkBatch_apply]
  split
  · rfl
  · split <;> rfl

end

section
variable {σ : Type} {t t' : Transport σ} {I : σ → Prop} {P : Json → Prop} (hpage : ∀ n : Nat, P (.obj [("start_index", .num n)]))
variable (hsend : ∀ w, WireAll P w → Below I (send t w) (send t' w))
include hsend

theorem executeSingle_below (m : String) (p : Json) (hp : p.truthy = true → P p) :
    Below I (executeSingle t m p) (executeSingle t' m p) := by
  refine Below.bind (hsend _ ?_) fun _ => Below.bind (Below.lift _) fun _ => Below.pure _
  intro q hq
  unfold mkRequest at hq
  simp only at hq
  split at hq
  · next h => cases hq; exact hp h
  · cases hq

omit hsend in
theorem pages_below {fetch fetch' : Nat → PyM (St σ) Json} (hf : ∀ n, Below I (fetch n) (fetch' n)) (name : String)
    (sum : Int) (items : List Json) : Below I (pages fetch name sum items) (pages fetch' name sum items) := by
  intro s
  induction items, s using pages.induct (fetch := fetch) (name := name) (sum := sum) with
  | case1 items s h e s' he =>
    rw [pages]; simp only [h, dif_pos, he]
    intro _ a s'' h'; cases h'
  | case2 items s h nb s' he e hn =>
    rw [pages]; simp only [h, dif_pos, he, hn]
    intro _ a s'' h'; cases h'
  | case3 items s h nb s' he hn =>
    intro hs a s'' h'
    obtain ⟨h1, h2⟩ := hf _ _ hs _ _ he
    rw [pages] at h'; simp only [h, dif_pos, he, hn] at h'
    rw [pages]; simp only [h, dif_pos, h1, hn]
    refine ⟨h', ?_⟩
    cases h'
    exact h2
  | case4 items s h nb s' he x xs hn ih =>
    intro hs a s'' h'
    obtain ⟨h1, h2⟩ := hf _ _ hs _ _ he
    rw [pages] at h'; simp only [h, dif_pos, he, hn] at h'
    rw [pages]; simp only [h, dif_pos, h1, hn]
    exact ih h2 a s'' h'
  | case5 items s h =>
    intro hs a s'' h'
    rw [pages] at h'; simp only [h, dif_neg, not_false_eq_true] at h'
    rw [pages]; simp only [h, dif_neg, not_false_eq_true]
    refine ⟨h', ?_⟩
    cases h'
    exact hs

/-- The same for the pages. -/
def PagerBelow (I : σ → Prop) (pager pager' : Pager σ) : Prop :=
  match pager, pager' with
  | some f, some f' => ∀ m p n, Below I (f m p n) (f' m p n)
  | none, none => True
  | _, _ => False

include hpage in
theorem pagerBelow : PagerBelow I (some fun m _ n => fetchPage t m n) (some fun m _ n => fetchPage t' m n) :=
  fun m _ n => executeSingle_below hsend m _ fun _ => hpage n

variable {pager pager' : Pager σ} (hpager : PagerBelow I pager pager')
include hpager

omit hsend in
theorem completeEntry_below (m : String) (p : Json) (e : Entry) :
    Below I (completeEntry pager m p e) (completeEntry pager' m p e) := by
  unfold completeEntry
  match pager, pager', hpager, e with
  | none, none, _, _ => exact Below.pure _
  | some _, some _, _, .error c => exact Below.pure _
  | some f, some f', hpager, .value v =>
    simp only
    split
    · refine Below.bind ?_ fun _ => Below.pure _
      unfold handleResponseLists
      split
      · split
        · exact Below.pure _
        · exact Below.pure _
        · exact Below.pure _
        · split
          · exact Below.raise _
          · exact Below.bind (Below.lift _) fun _ =>
              Below.bind (pages_below (fun n => hpager _ _ n) _ _ _) fun _ => Below.pure _
      · exact Below.pure _
    · exact Below.pure _

omit hsend hpager in
theorem mkRequest_wireAll {m : String} {p : Json} (hp : P p) : WireAll P (.single (mkRequest m p)) := by
  intro q hq
  unfold mkRequest at hq
  simp only at hq
  split at hq
  · cases hq; exact hp
  · cases hq

theorem executeMultiple_below (requests : Dict String Json) (hq : ∀ kv ∈ requests, P kv.2) :
    Below I (executeMultiple t pager requests) (executeMultiple t' pager' requests) := by
  have hm : ∀ r ∈ multiRequests requests, WireAll P (.single r) := by
    intro r hr
    unfold multiRequests at hr
    obtain ⟨kv, hkv, rfl⟩ := List.mem_map.1 hr
    exact mkRequest_wireAll (hq kv (List.mem_filter.1 hkv).1)
  unfold executeMultiple
  refine Below.bind (Below.same fun s => rfl) fun s => ?_
  simp only
  split
  · refine Below.foldM _ (fun acc r hr => ?_) _
    unfold queryUnbatched
    exact Below.bind (hsend _ (hm r hr)) fun _ => Below.bind (Below.lift _) fun _ => Below.bind (Below.lift _) fun _ => Below.pure _
  · refine Below.bind (Below.foldM _ (fun acc i _ => ?_) _) fun acc => Below.foldM _ (fun acc kv hkv => ?_) _
    · unfold sendBatch
      refine Below.bind (hsend _ ?_) fun resp => Below.bind (Below.same fun s => checkBatch_world resp s) fun _ =>
        Below.bind (Below.lift _) fun _ => Below.foldM _ (fun acc resp _ => ?_) _
      · intro r hr
        exact hm r (List.mem_of_mem_drop (List.mem_of_mem_take hr))
      · unfold processResponse
        split
        · split
          · exact Below.pure _
          · split
            · exact Below.pure _
            · exact Below.bind (Below.lift _) fun _ => Below.bind (completeEntry_below hpager _ _ _) fun _ => Below.pure _
          · split
            · exact Below.raise _
            · exact Below.pure _
        · exact Below.raise _
    · unfold queryMissing
      split
      · exact Below.pure _
      · exact Below.bind (hsend _ (mkRequest_wireAll (hq kv hkv))) fun _ => Below.bind (Below.lift _) fun _ => Below.pure _

omit hpager in
include hpage in
theorem executeQuery_below (q : Query) (hq : QueryAll P q) : Below I (executeQuery t q) (executeQuery t' q) := by
  have one : ∀ m p, (p.truthy = true → P p) → Below I (do
      let result ← executeSingle t m p
      let entry ← completeEntry (some fun m _ n => fetchPage t m n) m p (.value result)
      pure [(m, entry)]) (do
      let result ← executeSingle t' m p
      let entry ← completeEntry (some fun m _ n => fetchPage t' m n) m p (.value result)
      pure [(m, entry)] : PyM (St σ) (Dict String Entry)) := fun m p hp =>
    Below.bind (executeSingle_below hsend m p hp) fun _ => Below.bind (completeEntry_below (pagerBelow hpage hsend) _ _ _) fun _ => Below.pure _
  cases q with
  | name m => rw [executeQuery_name, executeQuery_name]; exact one m .null fun h => by cases h
  | dict requests =>
    by_cases hl : requests.length = 1
    · match requests, hl with
      | [(m, p)], _ => rw [executeQuery_one, executeQuery_one]; exact one m p fun _ => hq (m, p) (.head _)
    · rw [executeQuery_many t requests hl, executeQuery_many t' requests hl]
      exact executeMultiple_below hsend (pagerBelow hpage hsend) requests hq

end

/-! ## Devices that answer honestly, if at all -/

section
variable {σ : Type}

/-- What is said about the answer to a batch. -/
def CarriesAll (resp : Json) (rs : List Request) (ans : Request → Answer) : Prop :=
  ∃ items, resp.get? "error_code" = some (.num 0) ∧
    (∃ res, resp.get? "result" = some res ∧ res.get? "responses" = some (.arr items)) ∧
    ∀ item ∈ items, ∃ r ∈ rs, item.get? "method" = some (.str r.method) ∧ Carries item (ans r)

/-- As `Honest`, for a transport that may fail, in the states that it can get into. -/
structure HonestOr (t : Transport σ) (I : σ → Prop) (P : Json → Prop) (ans : Request → Answer) : Prop where
  keep : ∀ w, WireAll P w → ∀ s, I s → I (t.send w s).2
  reset : ∀ s, I s → I (t.reset s).2
  single : ∀ r w, WireAll P (.single r) → I w → ∀ resp, (t.send (.single r) w).1 = .ok resp → Carries resp (ans r)
  multi : ∀ rs w, WireAll P (.multi rs) → I w → ∀ resp, (t.send (.multi rs) w).1 = .ok resp → CarriesAll resp rs ans

open Classical in
/-- The same transport, with the answers of the device where there were failures. -/
noncomputable def total (t : Transport σ) (I : σ → Prop) (P : Json → Prop) (ans : Request → Answer) : Transport σ where
  send w s :=
    if WireAll P w ∧ I s ∧ ∃ resp, (t.send w s).1 = .ok resp then t.send w s
    else
      (.ok (match w with
        | .single r => .obj (("error_code", .num (ans r).1) :: match (ans r).2 with | some v => [("result", v)] | none => [])
        | _ => .obj [("error_code", .num 0), ("result", .obj [("responses", .arr [])])]), s)
  reset := t.reset

theorem total_honest {t : Transport σ} {I : σ → Prop} {P : Json → Prop} {ans : Request → Answer} (h : HonestOr t I P ans) :
    Honest (total t I P ans) ans := by
  constructor
  · intro r w
    unfold total
    simp only
    split
    · next hc =>
      obtain ⟨h1, h2, resp, h3⟩ := hc
      exact ⟨resp, _, Prod.ext h3 rfl, h.single r w h1 h2 resp h3⟩
    · refine ⟨_, w, rfl, ⟨_, rfl⟩, rfl, ?_⟩
      cases (ans r).2 <;> rfl
  · intro rs w
    unfold total
    simp only
    split
    · next hc =>
      obtain ⟨h1, h2, resp, h3⟩ := hc
      obtain ⟨items, h4⟩ := h.multi rs w h1 h2 resp h3
      exact ⟨resp, items, _, Prod.ext h3 rfl, h4⟩
    · exact ⟨_, [], w, rfl, rfl, ⟨_, rfl, rfl⟩, fun _ h => by cases h⟩

theorem total_below {t : Transport σ} {I : σ → Prop} {P : Json → Prop} {ans : Request → Answer} (h : HonestOr t I P ans)
    (w : Wire) (hw : WireAll P w) : Below I (send t w) (send (total t I P ans) w) := by
  intro s hs a s' he
  rw [send_apply] at he ⊢
  simp only [Prod.mk.injEq] at he
  have : (total t I P ans).send w s.world = t.send w s.world := by
    unfold total
    simp only
    rw [if_pos ⟨hw, hs, a, he.1⟩]
  rw [this]
  refine ⟨Prod.ext he.1 he.2, ?_⟩
  rw [← he.2]
  exact h.keep w hw s.world hs

/-- The batch size stays as it is. -/
theorem honestOr_batchSize {t : Transport σ} {I : σ → Prop} {P : Json → Prop} {ans : Request → Answer} (h : HonestOr t I P ans)
    (hpage : ∀ n : Nat, P (.obj [("start_index", .num n)])) :
    Keeps t P fun a b => I a.world → I b.world ∧ b.batchSize = a.batchSize where
  refl _ h := ⟨h, rfl⟩
  trans _ _ _ h1 h2 h := ⟨(h2 (h1 h).1).1, (h2 (h1 h).1).2.trans (h1 h).2⟩
  page := hpage
  single r hr s hs := ⟨h.keep _ hr _ hs, rfl⟩
  batch rs hr s hs := by
    have hk := h.keep _ hr _ hs
    simp only [bind_apply, send_apply]
    cases hsend : t.send (.multi rs) s.world with
    | mk o w' =>
    rw [hsend] at hk
    cases o with
    | error e => exact ⟨hk, rfl⟩
    | ok resp =>
      obtain ⟨items, h1, -⟩ := h.multi rs s.world hr hs resp (by rw [hsend])
      have : checkResponse true resp = .ok none := by
        cases resp with
        | obj kvs =>
          have h1 : Dict.get? kvs "error_code" = some (.num 0) := h1
          simp only [checkResponse, h1]
          rfl
        | _ => cases h1
      simp only [checkBatch_apply, this, pure_apply]
      exact ⟨hk, trivial⟩
  reset s hs := ⟨h.reset _ hs, rfl⟩

/-- A query around a given attempt. -/
def retried (t : Transport σ) (attempt : PyM (St σ) (Dict String Entry)) (rc : Int) : PyM (St σ) (Dict String Entry) :=
  Retry.smartQuery
    { attempt := fun _ => attempt
      reset := fun s => match t.reset s.world with | (r, world) => (r, { s with world := world })
      sleep := pure () } rc

/-- A query that returns has had one attempt in which everything was answered. -/
theorem retried_last (t : Transport σ) (attempt : PyM (St σ) (Dict String Entry)) (rc : Int) {R : St σ → St σ → Prop} (hrefl : ∀ s, R s s)
    (htrans : ∀ a b c, R a b → R b c → R a c) (hattempt : Rel R (attempt))
    (hreset : ∀ s, R s { s with world := (t.reset s.world).2 }) {s s' : St σ} {r : Dict String Entry}
    (h : retried t attempt rc s = (.ok r, s')) :
    ∃ s1, R s s1 ∧ attempt s1 = (.ok r, s') := by
  rw [retried, Retry.smartQuery] at h
  revert h
  generalize (List.range (rc + 1).toNat) = l
  intro h
  induction l generalizing s with
  | nil => cases h
  | cons n l ih =>
    unfold Retry.loop at h
    unfold tryExcept at h
    simp only at h
    cases hA : attempt s with
    | mk o s1 =>
    rw [hA] at h
    have hr : R s s1 := by have := hattempt s; rwa [hA] at this
    cases o with
    | ok a => exact ⟨s, hrefl s, hA.trans h⟩
    | error e =>
      simp only at h
      have again : ∀ s2, R s s2 → Retry.loop true
          ({ attempt := fun _ => attempt
             reset := fun s => match t.reset s.world with | (r, world) => (r, { s with world := world })
             sleep := pure () } : Retry.Ops (St σ) (Dict String Entry)) rc l s2 = (.ok r, s') →
          ∃ s1, R s s1 ∧ attempt s1 = (.ok r, s') := by
        intro s2 h2 h3
        obtain ⟨s3, h4, h5⟩ := ih h3
        exact ⟨s3, htrans _ _ _ h2 h4, h5⟩
      have hafter : ∀ {β : Type} (m : PyM (St σ) β) (f : β → PyM (St σ) (Dict String Entry)) (b : Dict String Entry) (s2 s3 : St σ),
          (m >>= f) s2 = (.ok b, s3) → ∃ x s4, m s2 = (.ok x, s4) ∧ f x s4 = (.ok b, s3) := fun m f b s2 s3 h => bind_eq_ok h
      have hres : ∀ {u : Unit} {s2 s3 : St σ}, ((fun s => match t.reset s.world with | (r, world) => (r, { s with world := world })) : PyM (St σ) Unit) s2 = (.ok u, s3) →
          R s2 s3 := by
        intro u s2 s3 h
        have := hreset s2
        simp only [Prod.mk.injEq] at h
        rw [← h.2]
        exact this
      cases e with
      | connection =>
        simp only at h
        split at h
        · cases h
        · exact again s1 hr h
      | auth c =>
        obtain ⟨_, s4, _, h⟩ := hafter _ _ _ _ _ h
        cases h
      | retryable c =>
        obtain ⟨_, s4, h4, h⟩ := hafter _ _ _ _ _ h
        split at h
        · cases h
        · simp only [if_true] at h
          obtain ⟨_, s5, h5, h⟩ := hafter _ _ _ _ _ h
          cases h5
          exact again _ (htrans _ _ _ hr (hres h4)) h
      | timeout =>
        obtain ⟨_, s4, h4, h⟩ := hafter _ _ _ _ _ h
        split at h
        · cases h
        · obtain ⟨_, s5, h5, h⟩ := hafter _ _ _ _ _ h
          cases h5
          exact again _ (htrans _ _ _ hr (hres h4)) h
      | kasa =>
        obtain ⟨_, s4, _, h⟩ := hafter _ _ _ _ _ h
        cases h
      | unsupported =>
        obtain ⟨_, s4, _, h⟩ := hafter _ _ _ _ _ h
        cases h
      | device c =>
        obtain ⟨_, s4, _, h⟩ := hafter _ _ _ _ _ h
        cases h
      | other n => cases h
      | base => cases h

theorem query_last (t : Transport σ) (q : Query) (rc : Int) {R : St σ → St σ → Prop} (hrefl : ∀ s, R s s)
    (htrans : ∀ a b c, R a b → R b c → R a c) (hattempt : Rel R (executeQuery t q))
    (hreset : ∀ s, R s { s with world := (t.reset s.world).2 }) {s s' : St σ} {r : Dict String Entry}
    (h : query t q rc s = (.ok r, s')) :
    ∃ s1, R s s1 ∧ executeQuery t q s1 = (.ok r, s') :=
  retried_last t _ rc hrefl htrans hattempt hreset h

/-- What all attempts keep. -/
theorem retried_rel (t : Transport σ) (attempt : PyM (St σ) (Dict String Entry)) (rc : Int) {R : St σ → St σ → Prop} (hrefl : ∀ s, R s s)
    (htrans : ∀ a b c, R a b → R b c → R a c) (hattempt : Rel R attempt)
    (hreset : ∀ s, R s { s with world := (t.reset s.world).2 }) : Rel R (retried t attempt rc) :=
  Retry.loop_rel hrefl htrans true _ (fun _ => hattempt) (fun s => hreset s) (fun s => hrefl s) rc _

/-- A first attempt that works is the only one. -/
theorem retried_ok (t : Transport σ) {attempt : PyM (St σ) (Dict String Entry)} (rc : Nat) {s s' : St σ} {r : Dict String Entry}
    (h : attempt s = (.ok r, s')) : retried t attempt rc s = (.ok r, s') := by
  unfold retried Retry.smartQuery
  have : (rc + 1 : Int).toNat = rc + 1 := by omega
  rw [this, List.range_succ_eq_map]
  unfold Retry.loop
  exact tryExcept_ok h

/-- The result of a query, over a transport that fails whenever it likes but passes on the device's own answers: whatever
retries it took, when the query returns the result is complete and right. -/
theorem query_honestOr {t : Transport σ} {I : σ → Prop} {P : Json → Prop} {ans : Request → Answer} (h : HonestOr t I P ans)
    (hpage : ∀ n : Nat, P (.obj [("start_index", .num n)])) (hu : Unpaged ans)
    (requests : Dict String Json) (hwf : Dict.WF requests) (hp : ∀ kv ∈ requests, P kv.2) (hlen : requests.length ≠ 1) (rc : Int)
    (s s' : St σ) (hs : I s.world) (hb : s.batchSize ≠ 1) (r : Dict String Entry)
    (hq : query t (.dict requests) rc s = (.ok r, s')) :
    (∀ m, m ∈ r.keys ↔ m ∈ requests.keys) ∧
      ∀ m p, (m, p) ∈ requests → Dict.get? r m = some (entryFor (ans (requestFor m p))) := by
  have k := honestOr_batchSize h hpage
  obtain ⟨s1, h1, h2⟩ := query_last t _ rc k.refl k.trans (executeQuery_keeps t k (.dict requests) hp) k.reset hq
  obtain ⟨hs1, hb1⟩ := h1 hs
  obtain ⟨h3, -⟩ := executeQuery_below hpage (fun w hw => total_below h w hw) (.dict requests) hp _ hs1 _ _ h2
  obtain ⟨r', s2, h4, h5, h6⟩ := C06_honest_device (total t I P ans) (total_honest h) hu requests hwf hlen s1 (by rw [hb1]; exact hb)
  rw [h3] at h4
  cases h4
  exact ⟨h5, h6⟩

end
end Kasa.Smart
