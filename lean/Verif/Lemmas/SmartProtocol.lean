import Verif.Spec.SmartProtocol
import Verif.Lemmas.ErrorCodes
import Verif.Lemmas.RetryLoop
import Verif.Props.ErrorCodes

namespace Kasa.Smart
open PyM SmartSpec

theorem batches_append (a b : List Wire) : batches (a ++ b) = batches a ++ batches b := by
  induction a with
  | nil => rfl
  | cons w ws ih => cases w <;> simp [batches, ih]

section
variable {σ : Type} (t : Transport σ)

theorem send_apply (w : Wire) (s : St σ) :
    send t w s = ((t.send w s.world).1, { s with world := (t.send w s.world).2, wire := s.wire ++ [w] }) := rfl

/-- Only single requests are sent and the batch size is unchanged. -/
def Quiet (s s' : St σ) : Prop :=
  ∃ ws, s'.wire = s.wire ++ ws ∧ batches ws = [] ∧ s'.batchSize = s.batchSize

theorem Quiet.refl (s : St σ) : Quiet s s := ⟨[], by simp, rfl, rfl⟩

theorem Quiet.trans (a b c : St σ) (h1 : Quiet a b) (h2 : Quiet b c) : Quiet a c := by
  obtain ⟨w1, e1, b1, z1⟩ := h1
  obtain ⟨w2, e2, b2, z2⟩ := h2
  exact ⟨w1 ++ w2, by rw [e2, e1, List.append_assoc], by rw [batches_append, b1, b2]; rfl, by rw [z2, z1]⟩

theorem send_single_quiet (r : Request) : Rel Quiet (send t (.single r)) := by
  intro s
  exact ⟨[.single r], rfl, rfl, rfl⟩

theorem executeSingle_quiet (m : String) (p : Json) : Rel Quiet (executeSingle t m p) := by
  unfold executeSingle
  refine Rel.bind Quiet.trans (send_single_quiet t _) fun resp => ?_
  refine Rel.bind Quiet.trans (Rel.lift Quiet.refl _) fun _ => ?_
  exact Rel.pure Quiet.refl _

theorem pages_quiet (fetch : Nat → PyM (St σ) Json) (hf : ∀ n, Rel Quiet (fetch n)) (name : String)
    (sum : Int) (items : List Json) : Rel Quiet (pages fetch name sum items) := by
  intro s
  induction items, s using pages.induct (fetch := fetch) (name := name) (sum := sum) with
  | case1 items s h e s' he =>
    rw [pages]; simp only [h, dif_pos, he]
    have := hf items.length s; rw [he] at this; exact this
  | case2 items s h nb s' he e hn =>
    rw [pages]; simp only [h, dif_pos, he, hn]
    have := hf items.length s; rw [he] at this; exact this
  | case3 items s h nb s' he hn =>
    rw [pages]; simp only [h, dif_pos, he, hn]
    have := hf items.length s; rw [he] at this; exact this
  | case4 items s h nb s' he x xs hn ih =>
    rw [pages]; simp only [h, dif_pos, he, hn]
    have := hf items.length s; rw [he] at this
    exact Quiet.trans _ _ _ this ih
  | case5 items s h =>
    rw [pages]; simp only [h, dif_neg, not_false_eq_true]; exact Quiet.refl s

theorem handleResponseLists_quiet (fetch : Nat → PyM (St σ) Json) (hf : ∀ n, Rel Quiet (fetch n))
    (result : Json) : Rel Quiet (handleResponseLists fetch result) := by
  unfold handleResponseLists
  split
  · split
    · exact Rel.pure Quiet.refl _
    · exact Rel.pure Quiet.refl _
    · exact Rel.pure Quiet.refl _
    · split
      · exact Rel.raise Quiet.refl _
      · refine Rel.bind Quiet.trans (Rel.lift Quiet.refl _) fun n => ?_
        refine Rel.bind Quiet.trans (pages_quiet fetch hf _ _ _) fun _ => ?_
        exact Rel.pure Quiet.refl _
  · exact Rel.pure Quiet.refl _

theorem fetchPage_quiet (m : String) (n : Nat) : Rel Quiet (fetchPage t m n) := executeSingle_quiet t _ _

/-- The pager only sends single requests. -/
def QuietPager (pager : Pager σ) : Prop := ∀ f, pager = some f → ∀ m p n, Rel Quiet (f m p n)

theorem smartPager_quiet : QuietPager (some fun m _ n => fetchPage t m n) := by
  intro f hf m p n
  cases hf
  exact fetchPage_quiet t m n

theorem completeEntry_quiet (pager : Pager σ) (hp : QuietPager pager) (m : String) (p : Json) (e : Entry) :
    Rel Quiet (completeEntry pager m p e) := by
  unfold completeEntry
  split
  · rename_i fetch v
    split
    · refine Rel.bind Quiet.trans (handleResponseLists_quiet _ (hp fetch rfl m p) _) fun _ => ?_
      exact Rel.pure Quiet.refl _
    · exact Rel.pure Quiet.refl _
  · exact Rel.pure Quiet.refl _

theorem processResponse_quiet (pager : Pager σ) (hp : QuietPager pager) (requests : Dict String Json)
    (raise : Bool) (acc : Dict String Entry) (resp : Json) :
    Rel Quiet (processResponse pager requests raise acc resp) := by
  unfold processResponse
  split
  · split
    · exact Rel.pure Quiet.refl _
    · split
      · exact Rel.pure Quiet.refl _
      · refine Rel.bind Quiet.trans (Rel.lift Quiet.refl _) fun _ => ?_
        refine Rel.bind Quiet.trans (completeEntry_quiet pager hp _ _ _) fun _ => ?_
        exact Rel.pure Quiet.refl _
    · split
      · exact Rel.raise Quiet.refl _
      · exact Rel.pure Quiet.refl _
  · exact Rel.raise Quiet.refl _

theorem queryMissing_quiet (raise : Bool) (acc : Dict String Entry) (r : String × Json) :
    Rel Quiet (queryMissing t raise acc r) := by
  unfold queryMissing
  split
  · exact Rel.pure Quiet.refl _
  · refine Rel.bind Quiet.trans (send_single_quiet t _) fun resp => ?_
    refine Rel.bind Quiet.trans (Rel.lift Quiet.refl _) fun _ => ?_
    exact Rel.pure Quiet.refl _

theorem queryUnbatched_quiet (raise : Bool) (acc : Dict String Entry) (r : Request) :
    Rel Quiet (queryUnbatched t raise acc r) := by
  unfold queryUnbatched
  refine Rel.bind Quiet.trans (send_single_quiet t _) fun resp => ?_
  refine Rel.bind Quiet.trans (Rel.lift Quiet.refl _) fun _ => ?_
  refine Rel.bind Quiet.trans (Rel.lift Quiet.refl _) fun _ => ?_
  exact Rel.pure Quiet.refl _

theorem executeMultiple_quiet_of_one (pager : Pager σ) (requests : Dict String Json) (s : St σ)
    (h : s.batchSize = 1) : Quiet s (executeMultiple t pager requests s).2 := by
  unfold executeMultiple
  simp only [bind_apply, get_apply, h, if_true]
  exact Rel.foldM Quiet.refl Quiet.trans (queryUnbatched_quiet t _) _ _ s

theorem checkBatch_apply (resp : Json) (s : St σ) :
    checkBatch resp s = match checkResponse true resp with
      | .ok _ => (.ok (), s)
      | .error ex =>
        if ex.isDeviceError && (ex.code == some Codes.jsonDecodeFailError || ex.code == some Codes.internalUnknownError)
            && s.batchSize != 1 then (.error (.retryable none), { s with batchSize := 1 })
        else (.error ex, s) := by
  unfold checkBatch
  cases checkResponse true resp with
  | ok _ => rfl
  | error ex =>
    simp only [bind_apply, get_apply]
    split <;> rfl

/-- What one batch puts on the wire, whatever its outcome: the batch, then only single requests; the batch
size is kept or set to one (and then the outcome is an error). -/
theorem sendBatch_wire (pager : Pager σ) (hp : QuietPager pager) (requests : Dict String Json) (raise : Bool)
    (mr : List Request) (step : Nat) (acc : Dict String Entry) (i : Nat) (s : St σ) :
    ∃ ws, (sendBatch t pager requests raise mr step acc i s).2.wire = s.wire ++ ws ∧
      batches ws = [(mr.drop i).take step] := by
  unfold sendBatch
  rw [bind_apply, send_apply]
  cases hs : t.send (.multi ((mr.drop i).take step)) s.world with
  | mk r w =>
    cases r with
    | error e => exact ⟨[_], rfl, rfl⟩
    | ok resp =>
      simp only
      generalize hs1 : ({ s with world := w, wire := s.wire ++ [.multi ((mr.drop i).take step)] } : St σ) = s1
      have hw1 : s1.wire = s.wire ++ [.multi ((mr.drop i).take step)] := by rw [← hs1]
      rw [bind_apply]
      have hcb : (checkBatch resp s1).2.wire = s1.wire := by
        rw [checkBatch_apply]
        split
        · rfl
        · split <;> rfl
      cases hc : checkBatch resp s1 with
      | mk r2 s2 =>
        rw [hc] at hcb
        simp only at hcb
        cases r2 with
        | error e => exact ⟨_, by simp only; rw [hcb, hw1], rfl⟩
        | ok u =>
          simp only
          rw [bind_apply, lift_apply]
          cases hb : batchResponses resp with
          | error e => exact ⟨_, by simp only; rw [hcb, hw1], rfl⟩
          | ok items =>
            simp only
            obtain ⟨ws, e1, b1, _⟩ := Rel.foldM Quiet.refl Quiet.trans
              (processResponse_quiet pager hp requests raise) acc items s2
            refine ⟨[.multi ((mr.drop i).take step)] ++ ws, ?_, ?_⟩
            · rw [e1, hcb, hw1, List.append_assoc]
            · rw [batches_append, b1]; rfl

theorem sendBatch_size (pager : Pager σ) (hp : QuietPager pager) (requests : Dict String Json) (raise : Bool)
    (mr : List Request) (step : Nat) (acc acc' : Dict String Entry) (i : Nat) (s s' : St σ)
    (h : sendBatch t pager requests raise mr step acc i s = (.ok acc', s')) : s'.batchSize = s.batchSize := by
  unfold sendBatch at h
  obtain ⟨resp, s1, h1, h2⟩ := bind_eq_ok h
  obtain ⟨_, s2, h3, h4⟩ := bind_eq_ok h2
  obtain ⟨items, s3, h5, h6⟩ := bind_eq_ok h4
  have z1 : s1.batchSize = s.batchSize := by
    rw [send_apply] at h1
    simp only [Prod.mk.injEq] at h1
    rw [← h1.2]
  have z2 : s2 = s1 := by
    rw [checkBatch_apply] at h3
    split at h3
    · simp at h3; exact h3.symm
    · split at h3
      · simp at h3
      · simp at h3
  have z3 : s3 = s2 := by
    rw [lift_apply] at h5
    simp only [Prod.mk.injEq] at h5
    exact h5.2.symm
  obtain ⟨ws, e1, b1, z4⟩ := Rel.foldM Quiet.refl Quiet.trans
    (processResponse_quiet pager hp requests raise) acc items s3
  rw [h6] at z4
  simp only at z4
  rw [z4, z3, z2, z1]

theorem batchStarts_eq (n step : Nat) :
    batchStarts n step = (List.range ((n + step - 1) / step)).map (· * step) := rfl

/-- Cutting a list at the batch starts gives back the list, as long as the starts cover it. -/
theorem flatten_batches {α : Type} (l : List α) (step k : Nat) :
    ((List.range k).map fun i => (l.drop (i * step)).take step).flatten = l.take (k * step) := by
  induction k with
  | zero => simp
  | succ k ih =>
    rw [List.range_succ, List.map_append, List.flatten_append, ih]
    simp only [List.map_cons, List.map_nil, List.flatten_cons, List.flatten_nil, List.append_nil]
    rw [Nat.succ_mul, List.take_add]

theorem multiRequests_length (requests : Dict String Json) :
    (multiRequests requests).length ≤ requests.length := by
  unfold multiRequests
  rw [List.length_map]
  exact List.length_filter_le _ _

theorem starts_cover (n step : Nat) (h : 0 < step) : n ≤ (n + step - 1) / step * step := by
  have h1 := Nat.div_add_mod (n + step - 1) step
  have h2 := Nat.mod_lt (n + step - 1) h
  rw [Nat.mul_comm] at h1
  omega

/-! ## Single-request steps from an honest device -/

theorem checkResponse_carries {resp : Json} {a : Answer} (h : Carries resp a) :
    checkResponse false resp = .ok (if a.1 = 0 then none else some (CodesSpec.reported a.1)) := by
  obtain ⟨⟨kvs, rfl⟩, h1, _⟩ := h
  have h1' : Dict.get? kvs "error_code" = some (.num a.1) := h1
  simp only [checkResponse, h1', Bool.false_eq_true, if_false]
  exact Codes.C09_protocol_entry a.1

theorem checkResponse_carries_raise {resp : Json} {a : Answer} (h : Carries resp a) :
    checkResponse true resp = match CodesSpec.expected a.1 with
      | .error e => .error e
      | .ok () => .ok none := by
  obtain ⟨⟨kvs, rfl⟩, h1, _⟩ := h
  have h1' : Dict.get? kvs "error_code" = some (.num a.1) := h1
  simp only [checkResponse, h1', if_true]
  rw [Codes.C09_protocol]
  cases CodesSpec.expected a.1 <;> rfl

theorem resultGet_carries {resp : Json} {a : Answer} (h : Carries resp a) :
    resultGet resp (if a.1 = 0 then none else some (CodesSpec.reported a.1)) = entryFor a := by
  unfold resultGet entryFor
  by_cases h0 : a.1 = 0
  · simp only [h0, if_true]; rw [h.2.2]
  · simp only [h0, if_false]

theorem queryMissing_honest {ans : Request → Answer} (hd : Honest t ans) (acc : Dict String Entry)
    (m : String) (p : Json) (s : St σ) :
    ∃ s', queryMissing t false acc (m, p) s =
      (.ok (if acc.has m then acc else acc.set m (entryFor (ans (mkRequest m p)))), s') := by
  unfold queryMissing
  by_cases hm : acc.has m = true
  · simp [hm]
  · obtain ⟨resp, w', h1, h2⟩ := hd.single (mkRequest m p) s.world
    refine ⟨{ s with world := w', wire := s.wire ++ [.single (mkRequest m p)] }, ?_⟩
    simp only [hm, if_false, Bool.false_eq_true]
    rw [bind_apply, send_apply, h1]
    simp only
    rw [bind_apply, lift_apply, checkResponse_carries h2]
    simp only [pure_apply]
    rw [resultGet_carries h2]

/-- The result so far only holds right answers to requested methods. -/
def Right (E : String → Json → Entry) (requests : Dict String Json) (acc : Dict String Entry) : Prop :=
  ∀ m e, acc.get? m = some e → ∃ p, (m, p) ∈ requests ∧ e = E m p

theorem Right.set {E : String → Json → Entry} {requests : Dict String Json} {acc : Dict String Entry}
    (h : Right E requests acc) {m : String} {p : Json} (hm : (m, p) ∈ requests) :
    Right E requests (acc.set m (E m p)) := by
  intro m' e he
  rw [Dict.get?_set] at he
  split at he
  · rename_i heq; subst heq; cases he; exact ⟨p, hm, rfl⟩
  · exact h m' e he

theorem queryMissing_fold_honest {ans : Request → Answer} (hd : Honest t ans) (requests : Dict String Json)
    (E : String → Json → Entry) (hE : ∀ m p, (m, p) ∈ requests → E m p = entryFor (ans (mkRequest m p)))
    (l : Dict String Json) (hl : ∀ x ∈ l, x ∈ requests) (acc : Dict String Entry)
    (hacc : Right E requests acc) (s : St σ) :
    ∃ r s', foldM (queryMissing t false) acc l s = (.ok r, s') ∧ Right E requests r ∧
      (∀ m, m ∈ acc.keys → m ∈ r.keys) ∧ (∀ m, m ∈ l.keys → m ∈ r.keys) := by
  induction l generalizing acc s with
  | nil => exact ⟨acc, s, rfl, hacc, fun _ h => h, fun _ h => by simp at h⟩
  | cons x l ih =>
    obtain ⟨m, p⟩ := x
    obtain ⟨s1, h1⟩ := queryMissing_honest t hd acc m p s
    rw [foldM_cons, bind_ok h1]
    have hmem : (m, p) ∈ requests := hl _ (List.mem_cons_self ..)
    have hr1 : Right E requests (if acc.has m then acc else acc.set m (entryFor (ans (mkRequest m p)))) := by
      split
      · exact hacc
      · rw [← hE m p hmem]; exact hacc.set hmem
    obtain ⟨r, s', e1, e2, e3, e4⟩ := ih (fun y hy => hl y (List.mem_cons_of_mem _ hy)) _ hr1 s1
    have hsub : ∀ k, k ∈ acc.keys ∨ k = m →
        k ∈ (if acc.has m then acc else acc.set m (entryFor (ans (mkRequest m p)))).keys := by
      intro k hk
      split
      · rename_i hm
        rcases hk with hk | rfl
        · exact hk
        · exact Dict.has_iff.mp hm
      · rw [Dict.mem_keys_set]; exact hk.symm
    refine ⟨r, s', e1, e2, fun k hk => e3 k (hsub k (Or.inl hk)), ?_⟩
    intro k hk
    rw [Dict.keys_cons, List.mem_cons] at hk
    rcases hk with rfl | hk
    · exact e3 _ (hsub _ (Or.inr rfl))
    · exact e4 k hk

/-- How entries of batched answers end up: `pager` turns the answer to each request into `E`. -/
def Completes (pager : Pager σ) (ans : Request → Answer) (E : String → Json → Entry)
    (requests : Dict String Json) : Prop :=
  ∀ m p, (m, p) ∈ requests → ∀ s : St σ, ∃ s',
    completeEntry pager m p (entryFor (ans (mkRequest m p))) s = (.ok (E m p), s')

theorem processResponse_honest {ans : Request → Answer} {pager : Pager σ} {E : String → Json → Entry}
    {requests : Dict String Json} (hwf : Dict.WF requests) (hE : Completes pager ans E requests)
    {item : Json} {m : String} {p : Json} (hm : (m, p) ∈ requests)
    (hmeth : item.get? "method" = some (.str m)) (hc : Carries item (ans (mkRequest m p)))
    (acc : Dict String Entry) (s : St σ) :
    ∃ s', processResponse pager requests false acc item s =
      (.ok (if m = "" then acc else acc.set m (E m p)), s') := by
  have hget : Dict.get? requests m = some p := Dict.get?_of_mem hwf hm
  obtain ⟨kvs, hk⟩ := hc.1
  subst hk
  have hmeth' : Dict.get? kvs "method" = some (.str m) := hmeth
  unfold processResponse
  simp only [hmeth']
  by_cases h0 : m = ""
  · simp [h0]
  · obtain ⟨s', hs'⟩ := hE m p hm s
    refine ⟨s', ?_⟩
    simp only [h0, if_false]
    rw [bind_apply, lift_apply, checkResponse_carries hc]
    simp only
    rw [resultGet_carries hc, hget]
    simp only [Option.getD_some]
    rw [bind_ok hs']
    rfl

theorem processResponse_fold_honest {ans : Request → Answer} {pager : Pager σ} {E : String → Json → Entry}
    {requests : Dict String Json} (hwf : Dict.WF requests) (hE : Completes pager ans E requests)
    (items : List Json)
    (hitems : ∀ item ∈ items, ∃ m p, (m, p) ∈ requests ∧ item.get? "method" = some (.str m) ∧
      Carries item (ans (mkRequest m p)))
    (acc : Dict String Entry) (hacc : Right E requests acc) (s : St σ) :
    ∃ r s', foldM (processResponse pager requests false) acc items s = (.ok r, s') ∧ Right E requests r ∧
      (∀ m, m ∈ acc.keys → m ∈ r.keys) ∧
      (∀ item ∈ items, ∀ m, item.get? "method" = some (.str m) → m ≠ "" → m ∈ r.keys) := by
  induction items generalizing acc s with
  | nil => exact ⟨acc, s, rfl, hacc, fun _ h => h, fun _ h => by simp at h⟩
  | cons item items ih =>
    obtain ⟨m, p, hm, hmeth, hc⟩ := hitems item (List.mem_cons_self ..)
    obtain ⟨s1, h1⟩ := processResponse_honest hwf hE hm hmeth hc acc s
    rw [foldM_cons, bind_ok h1]
    have hr1 : Right E requests (if m = "" then acc else acc.set m (E m p)) := by
      split
      · exact hacc
      · exact hacc.set hm
    obtain ⟨r, s', e1, e2, e3, e4⟩ := ih (fun y hy => hitems y (List.mem_cons_of_mem _ hy)) _ hr1 s1
    refine ⟨r, s', e1, e2, ?_, ?_⟩
    · intro k hk
      apply e3
      split
      · exact hk
      · rw [Dict.mem_keys_set]; exact Or.inr hk
    · intro it hit k hk hne
      rw [List.mem_cons] at hit
      rcases hit with rfl | hit
      · rw [hmeth] at hk
        cases hk
        apply e3
        simp only [hne, if_false]
        rw [Dict.mem_keys_set]; exact Or.inl rfl
      · exact e4 it hit k hk hne

theorem mem_multiRequests {requests : Dict String Json} {r : Request} :
    r ∈ multiRequests requests ↔ ∃ m p, (m, p) ∈ requests ∧ m ∉ forceSingleRequest ∧ r = mkRequest m p := by
  unfold multiRequests
  simp only [List.mem_map, List.mem_filter, Bool.not_eq_true', List.contains_eq_mem, decide_eq_false_iff_not]
  constructor
  · rintro ⟨⟨m, p⟩, ⟨h1, h2⟩, rfl⟩
    exact ⟨m, p, h1, h2, rfl⟩
  · rintro ⟨m, p, h1, h2, rfl⟩
    exact ⟨(m, p), ⟨h1, h2⟩, rfl⟩

/-- The device answers every request of every batch. -/
def AnswersAll (ans : Request → Answer) : Prop :=
  ∀ rs w resp res items w', t.send (.multi rs) w = (.ok resp, w') → resp.get? "result" = some res →
    res.get? "responses" = some (.arr items) →
    ∀ r ∈ rs, ∃ item ∈ items, item.get? "method" = some (.str r.method) ∧ Carries item (ans r)

theorem sendBatch_honest {ans : Request → Answer} (hd : Honest t ans) {pager : Pager σ}
    {E : String → Json → Entry} {requests : Dict String Json} (hwf : Dict.WF requests)
    (hE : Completes pager ans E requests) (step i : Nat) (acc : Dict String Entry)
    (hacc : Right E requests acc) (s : St σ) :
    ∃ r s', sendBatch t pager requests false (multiRequests requests) step acc i s = (.ok r, s') ∧
      Right E requests r ∧ (∀ m, m ∈ acc.keys → m ∈ r.keys) ∧
      (AnswersAll t ans → ∀ q ∈ ((multiRequests requests).drop i).take step, q.method ≠ "" → q.method ∈ r.keys) := by
  obtain ⟨resp, items, w', h1, h2, ⟨res, h3, h4⟩, h5⟩ := hd.multi (((multiRequests requests).drop i).take step) s.world
  have hresp : ∃ kvs, resp = .obj kvs := by
    cases resp <;> simp [Json.get?] at h2 ⊢
  obtain ⟨kvs, rfl⟩ := hresp
  have h2' : Dict.get? kvs "error_code" = some (.num 0) := h2
  have hres : ∃ kvs', res = .obj kvs' := by
    cases res <;> simp [Json.get?] at h4 ⊢
  obtain ⟨kvs', rfl⟩ := hres
  have h4' : Dict.get? kvs' "responses" = some (.arr items) := h4
  have hcheck : checkResponse true (.obj kvs) = .ok none := by
    simp only [checkResponse, if_true, h2']
    rw [Codes.C09_protocol]; simp [CodesSpec.expected]
  have hbr : batchResponses (.obj kvs) = .ok items := by
    simp only [batchResponses, h3, h4']
  have hitems : ∀ item ∈ items, ∃ m p, (m, p) ∈ requests ∧ item.get? "method" = some (.str m) ∧
      Carries item (ans (mkRequest m p)) := by
    intro item hi
    obtain ⟨r, hr, hr1, hr2⟩ := h5 item hi
    obtain ⟨m, p, hm, _, rfl⟩ := mem_multiRequests.mp (List.mem_of_mem_drop (List.mem_of_mem_take hr))
    exact ⟨m, p, hm, hr1, hr2⟩
  unfold sendBatch
  rw [bind_apply, send_apply, h1]
  simp only
  rw [bind_apply, checkBatch_apply, hcheck]
  simp only
  rw [bind_apply, lift_apply, hbr]
  simp only
  obtain ⟨r, s', e1, e2, e3, e4⟩ := processResponse_fold_honest hwf hE items hitems acc hacc
    { s with world := w', wire := s.wire ++ [.multi (((multiRequests requests).drop i).take step)] }
  refine ⟨r, s', e1, e2, e3, ?_⟩
  intro hall q hq hne
  obtain ⟨item, hi, hm, _⟩ := hall _ _ _ _ _ _ h1 h3 h4 q hq
  exact e4 item hi _ hm hne

theorem sendBatch_fold_honest {ans : Request → Answer} (hd : Honest t ans) {pager : Pager σ}
    {E : String → Json → Entry} {requests : Dict String Json} (hwf : Dict.WF requests)
    (hE : Completes pager ans E requests) (step : Nat) (is : List Nat) (acc : Dict String Entry)
    (hacc : Right E requests acc) (s : St σ) :
    ∃ r s', foldM (sendBatch t pager requests false (multiRequests requests) step) acc is s = (.ok r, s') ∧
      Right E requests r ∧ (∀ m, m ∈ acc.keys → m ∈ r.keys) ∧
      (AnswersAll t ans → ∀ i ∈ is, ∀ q ∈ ((multiRequests requests).drop i).take step, q.method ≠ "" →
        q.method ∈ r.keys) := by
  induction is generalizing acc s with
  | nil => exact ⟨acc, s, rfl, hacc, fun _ h => h, fun _ _ h => by simp at h⟩
  | cons i is ih =>
    obtain ⟨r1, s1, h1, h2, h3, h4⟩ := sendBatch_honest t hd hwf hE step i acc hacc s
    rw [foldM_cons, bind_ok h1]
    obtain ⟨r, s', e1, e2, e3, e4⟩ := ih r1 h2 s1
    refine ⟨r, s', e1, e2, fun m hm => e3 m (h3 m hm), ?_⟩
    intro hall j hj q hq hne
    rw [List.mem_cons] at hj
    rcases hj with rfl | hj
    · exact e3 _ (h4 hall q hq hne)
    · exact e4 hall j hj q hq hne

/-- Every batchable request is in some batch. -/
theorem mem_some_batch (requests : Dict String Json) (step : Nat) (hs : 0 < step) (q : Request)
    (hq : q ∈ multiRequests requests) :
    ∃ i ∈ batchStarts requests.length step, q ∈ ((multiRequests requests).drop i).take step := by
  have h := flatten_batches (multiRequests requests) step ((requests.length + step - 1) / step)
  have hlen : (multiRequests requests).length ≤ (requests.length + step - 1) / step * step :=
    Nat.le_trans (multiRequests_length requests) (starts_cover _ _ hs)
  rw [List.take_of_length_le hlen] at h
  rw [← h] at hq
  simp only [List.mem_flatten, List.mem_map] at hq
  obtain ⟨l, ⟨i, hi, rfl⟩, hq⟩ := hq
  exact ⟨i * step, by simp only [batchStarts, List.mem_map]; exact ⟨i, hi, rfl⟩, hq⟩

theorem handleResponseLists_unpaged (fetch : Nat → PyM (St σ) Json) (v : Json)
    (h : v.get? "start_index" = none) (s : St σ) : handleResponseLists fetch v s = (.ok v, s) := by
  unfold handleResponseLists
  split
  · rename_i kvs
    have h' : Dict.get? kvs "start_index" = none := h
    rw [h']
    rfl
  · rfl

theorem completeEntry_error (pager : Pager σ) (m : String) (p : Json) (c : Int) :
    completeEntry pager m p (.error c) = pure (.error c) := by cases pager <;> rfl

theorem completeEntry_none (m : String) (p : Json) (e : Entry) :
    completeEntry (none : Pager σ) m p e = pure e := by cases e <;> rfl

theorem completeEntry_value (fetch : String → Json → Nat → PyM (St σ) Json) (m : String) (p v : Json) :
    completeEntry (some fetch) m p (.value v) =
      if v.truthy then (handleResponseLists (fetch m p) v >>= fun v' => pure (.value v')) else pure (.value v) := rfl

theorem completeEntry_unpaged (pager : Pager σ) (m : String) (p : Json) (a : Answer)
    (h : ∀ v, a.2 = some v → v.get? "start_index" = none) (s : St σ) :
    completeEntry pager m p (entryFor a) s = (.ok (entryFor a), s) := by
  unfold entryFor
  by_cases h0 : a.1 = 0
  · simp only [h0, if_true]
    cases pager with
    | none => rw [completeEntry_none]; rfl
    | some fetch =>
      rw [completeEntry_value]
      split
      · have hv : (a.2.getD Json.null).get? "start_index" = none := by
          cases h2 : a.2 with
          | none => rfl
          | some v => exact h v h2
        rw [bind_ok (handleResponseLists_unpaged _ _ hv s)]
        rfl
      · rfl
  · simp only [h0, if_false, completeEntry_error]
    rfl

/-! ## Any device -/

theorem batches_fold (pager : Pager σ) (hp : QuietPager pager) (requests : Dict String Json) (raise : Bool)
    (mr : List Request) (step : Nat) (is : List Nat) (acc : Dict String Entry) (s : St σ) :
    ∃ ws done, (foldM (sendBatch t pager requests raise mr step) acc is s).2.wire = s.wire ++ ws ∧
      done <+: is ∧ batches ws = done.map (fun i => (mr.drop i).take step) ∧
      ((∃ r s', foldM (sendBatch t pager requests raise mr step) acc is s = (.ok r, s')) → done = is) := by
  induction is generalizing acc s with
  | nil => exact ⟨[], [], by simp [foldM_nil], List.prefix_rfl, rfl, fun _ => rfl⟩
  | cons i is ih =>
    obtain ⟨ws, e1, b1⟩ := sendBatch_wire t pager hp requests raise mr step acc i s
    rw [foldM_cons, bind_apply]
    cases hs : sendBatch t pager requests raise mr step acc i s with
    | mk r s1 =>
      rw [hs] at e1
      simp only at e1
      cases r with
      | error e =>
        refine ⟨ws, [i], e1, ⟨is, rfl⟩, b1, ?_⟩
        rintro ⟨r, s', h⟩
        simp at h
      | ok acc' =>
        obtain ⟨ws', done, e2, p2, b2, hok⟩ := ih acc' s1
        refine ⟨ws ++ ws', i :: done, ?_, ?_, ?_, ?_⟩
        · simp only; rw [e2, e1, List.append_assoc]
        · obtain ⟨rest, hrest⟩ := p2
          exact ⟨rest, by rw [List.cons_append, hrest]⟩
        · rw [batches_append, b1, b2]; rfl
        · intro h
          rw [hok h]

theorem queryMissing_keys (raise : Bool) (acc r : Dict String Entry) (q : String × Json) (s s' : St σ)
    (h : queryMissing t raise acc q s = (.ok r, s')) :
    ∀ m, m ∈ r.keys ↔ m ∈ acc.keys ∨ m = q.1 := by
  unfold queryMissing at h
  split at h
  · rename_i hh
    simp only [pure_apply, Prod.mk.injEq, Except.ok.injEq] at h
    obtain ⟨rfl, rfl⟩ := h
    intro m
    constructor
    · exact Or.inl
    · rintro (h | rfl)
      · exact h
      · exact Dict.has_iff.mp hh
  · obtain ⟨resp, s1, h1, h2⟩ := bind_eq_ok h
    obtain ⟨rep, s2, h3, h4⟩ := bind_eq_ok h2
    simp only [pure_apply, Prod.mk.injEq, Except.ok.injEq] at h4
    obtain ⟨rfl, rfl⟩ := h4
    intro m
    rw [Dict.mem_keys_set]
    exact Or.comm

theorem queryMissing_fold_keys (raise : Bool) (l : Dict String Json) (acc r : Dict String Entry) (s s' : St σ)
    (h : foldM (queryMissing t raise) acc l s = (.ok r, s')) :
    ∀ m, m ∈ r.keys ↔ m ∈ acc.keys ∨ m ∈ l.keys := by
  induction l generalizing acc s with
  | nil =>
    simp only [foldM_nil, pure_apply, Prod.mk.injEq, Except.ok.injEq] at h
    obtain ⟨rfl, rfl⟩ := h
    intro m; simp
  | cons q l ih =>
    rw [foldM_cons] at h
    obtain ⟨acc', s1, h1, h2⟩ := bind_eq_ok h
    intro m
    rw [ih acc' s1 h2 m, queryMissing_keys t raise acc acc' q s s1 h1 m, Dict.keys_cons, List.mem_cons]
    constructor
    · rintro ((h | h) | h)
      · exact Or.inl h
      · exact Or.inr (Or.inl h)
      · exact Or.inr (Or.inr h)
    · rintro (h | h | h)
      · exact Or.inl (Or.inl h)
      · exact Or.inl (Or.inr h)
      · exact Or.inr h

theorem processResponse_keys (pager : Pager σ) (requests : Dict String Json) (raise : Bool)
    (acc r : Dict String Entry) (resp : Json) (s s' : St σ)
    (h : processResponse pager requests raise acc resp s = (.ok r, s')) :
    ∀ m, m ∈ r.keys → m ∈ acc.keys ∨ resp.get? "method" = some (.str m) := by
  unfold processResponse at h
  cases resp with
  | obj kvs =>
    simp only at h
    show ∀ m, m ∈ r.keys → m ∈ acc.keys ∨ Dict.get? kvs "method" = some (.str m)
    cases hm : Dict.get? kvs "method" with
    | none =>
      simp only [hm, pure_apply, Prod.mk.injEq, Except.ok.injEq] at h
      rw [← h.1]; exact fun m hm => Or.inl hm
    | some v =>
      simp only [hm] at h
      cases v with
      | str method =>
        simp only at h
        split at h
        · simp only [pure_apply, Prod.mk.injEq, Except.ok.injEq] at h
          rw [← h.1]; exact fun m hm => Or.inl hm
        · obtain ⟨rep, s1, h1, h2⟩ := bind_eq_ok h
          obtain ⟨entry, s2, h3, h4⟩ := bind_eq_ok h2
          simp only [pure_apply, Prod.mk.injEq, Except.ok.injEq] at h4
          rw [← h4.1]
          intro m hm
          rw [Dict.mem_keys_set] at hm
          rcases hm with rfl | hm
          · exact Or.inr rfl
          · exact Or.inl hm
      | _ =>
        simp only at h
        split at h
        · simp at h
        · simp only [pure_apply, Prod.mk.injEq, Except.ok.injEq] at h
          rw [← h.1]; exact fun m hm => Or.inl hm
  | _ => simp at h

theorem processResponse_fold_keys (pager : Pager σ) (requests : Dict String Json) (raise : Bool)
    (items : List Json) (acc r : Dict String Entry) (s s' : St σ)
    (h : foldM (processResponse pager requests raise) acc items s = (.ok r, s')) :
    ∀ m, m ∈ r.keys → m ∈ acc.keys ∨ ∃ item ∈ items, item.get? "method" = some (.str m) := by
  induction items generalizing acc s with
  | nil =>
    simp only [foldM_nil, pure_apply, Prod.mk.injEq, Except.ok.injEq] at h
    rw [← h.1]; exact fun m hm => Or.inl hm
  | cons x l ih =>
    rw [foldM_cons] at h
    obtain ⟨acc', s1, h1, h2⟩ := bind_eq_ok h
    intro m hm
    rcases ih acc' s1 h2 m hm with h3 | ⟨item, hi, hk⟩
    · rcases processResponse_keys pager requests raise acc acc' x s s1 h1 m h3 with h4 | h4
      · exact Or.inl h4
      · exact Or.inr ⟨x, List.mem_cons_self .., h4⟩
    · exact Or.inr ⟨item, List.mem_cons_of_mem _ hi, hk⟩

theorem batchResponses_ok {resp : Json} {items : List Json} (h : batchResponses resp = .ok items) :
    ∃ res, resp.get? "result" = some res ∧ res.get? "responses" = some (.arr items) := by
  unfold batchResponses at h
  split at h
  · cases h
  · rename_i kvs hr
    refine ⟨_, hr, ?_⟩
    split at h
    · cases h
    · rename_i xs hx; cases h; exact hx
    · cases h
  · cases h

theorem sendBatch_keys (ho : OnlyAsked t) (pager : Pager σ) (requests : Dict String Json) (raise : Bool)
    (step i : Nat) (acc r : Dict String Entry) (s s' : St σ)
    (h : sendBatch t pager requests raise (multiRequests requests) step acc i s = (.ok r, s')) :
    ∀ m, m ∈ r.keys → m ∈ acc.keys ∨ m ∈ requests.keys := by
  unfold sendBatch at h
  obtain ⟨resp, s1, h1, h2⟩ := bind_eq_ok h
  obtain ⟨_, s2, h3, h4⟩ := bind_eq_ok h2
  obtain ⟨items, s3, h5, h6⟩ := bind_eq_ok h4
  rw [send_apply] at h1
  simp only [Prod.mk.injEq] at h1
  rw [lift_apply] at h5
  simp only [Prod.mk.injEq] at h5
  obtain ⟨res, hr1, hr2⟩ := batchResponses_ok h5.1
  intro m hm
  rcases processResponse_fold_keys pager requests raise items acc r s3 s' h6 m hm with h7 | ⟨item, hi, hk⟩
  · exact Or.inl h7
  · refine Or.inr ?_
    have := ho _ _ _ _ _ h1.1 hr1 hr2 item hi m hk
    rw [List.mem_map] at this
    obtain ⟨q, hq, rfl⟩ := this
    obtain ⟨k, p, hkp, _, rfl⟩ := mem_multiRequests.mp (List.mem_of_mem_drop (List.mem_of_mem_take hq))
    exact List.mem_map.mpr ⟨(k, p), hkp, rfl⟩

theorem sendBatch_fold_keys (ho : OnlyAsked t) (pager : Pager σ) (requests : Dict String Json) (raise : Bool)
    (step : Nat) (is : List Nat) (acc r : Dict String Entry) (s s' : St σ)
    (h : foldM (sendBatch t pager requests raise (multiRequests requests) step) acc is s = (.ok r, s')) :
    ∀ m, m ∈ r.keys → m ∈ acc.keys ∨ m ∈ requests.keys := by
  induction is generalizing acc s with
  | nil =>
    simp only [foldM_nil, pure_apply, Prod.mk.injEq, Except.ok.injEq] at h
    rw [← h.1]; exact fun m hm => Or.inl hm
  | cons x l ih =>
    rw [foldM_cons] at h
    obtain ⟨acc', s1, h1, h2⟩ := bind_eq_ok h
    intro m hm
    rcases ih acc' s1 h2 m hm with h3 | h3
    · exact sendBatch_keys t ho pager requests raise step x acc acc' s s1 h1 m h3
    · exact Or.inr h3

theorem queryUnbatched_fold_keys (raise : Bool) (l : List Request) (acc r : Dict String Entry) (s s' : St σ)
    (h : foldM (queryUnbatched t raise) acc l s = (.ok r, s')) :
    ∀ m, m ∈ r.keys ↔ m ∈ acc.keys ∨ m ∈ l.map Request.method := by
  induction l generalizing acc s with
  | nil =>
    simp only [foldM_nil, pure_apply, Prod.mk.injEq, Except.ok.injEq] at h
    rw [← h.1]; simp
  | cons q l ih =>
    rw [foldM_cons] at h
    obtain ⟨acc', s1, h1, h2⟩ := bind_eq_ok h
    intro m
    unfold queryUnbatched at h1
    obtain ⟨resp, s2, h3, h4⟩ := bind_eq_ok h1
    obtain ⟨rep, s3, h5, h6⟩ := bind_eq_ok h4
    obtain ⟨entry, s4, h7, h8⟩ := bind_eq_ok h6
    simp only [pure_apply, Prod.mk.injEq, Except.ok.injEq] at h8
    rw [ih acc' s1 h2 m, ← h8.1, Dict.mem_keys_set, List.map_cons, List.mem_cons]
    constructor
    · rintro ((h | h) | h)
      · exact Or.inr (Or.inl h)
      · exact Or.inl h
      · exact Or.inr (Or.inr h)
    · rintro (h | h | h)
      · exact Or.inl (Or.inr h)
      · exact Or.inl (Or.inl h)
      · exact Or.inr h

/-! ## Batches disabled, honest device -/

theorem queryUnbatched_honest {ans : Request → Answer}
    (hd : ∀ r w, ∃ resp w', t.send (.single r) w = (.ok resp, w') ∧ Carries resp (ans r))
    (q : Request) (hq : (ans q).1 = 0 → (ans q).2 ≠ none) (acc : Dict String Entry) (s : St σ) :
    ∃ s', queryUnbatched t false acc q s = (.ok (acc.set q.method (entryFor (ans q))), s') := by
  obtain ⟨resp, w', h1, h2⟩ := hd q s.world
  refine ⟨{ s with world := w', wire := s.wire ++ [.single q] }, ?_⟩
  unfold queryUnbatched
  rw [bind_apply, send_apply, h1]
  simp only
  rw [bind_apply, lift_apply, checkResponse_carries h2]
  simp only
  have : resultIndex resp (if (ans q).1 = 0 then none else some (CodesSpec.reported (ans q).1)) =
      .ok (entryFor (ans q)) := by
    unfold resultIndex entryFor
    by_cases h0 : (ans q).1 = 0
    · simp only [h0, if_true]
      rw [h2.2.2]
      cases h3 : (ans q).2 with
      | none => exact absurd h3 (hq h0)
      | some v => rfl
    · simp only [h0, if_false]
  rw [bind_apply, lift_apply, this]
  rfl

theorem queryUnbatched_fold_honest {ans : Request → Answer}
    (hd : ∀ r w, ∃ resp w', t.send (.single r) w = (.ok resp, w') ∧ Carries resp (ans r))
    (requests : Dict String Json) (l : List Request)
    (hl : ∀ q ∈ l, ∃ m p, (m, p) ∈ requests ∧ q = mkRequest m p)
    (hq : ∀ q ∈ l, (ans q).1 = 0 → (ans q).2 ≠ none) (acc : Dict String Entry)
    (hacc : Right (fun m p => entryFor (ans (mkRequest m p))) requests acc) (s : St σ) :
    ∃ r s', foldM (queryUnbatched t false) acc l s = (.ok r, s') ∧
      Right (fun m p => entryFor (ans (mkRequest m p))) requests r := by
  induction l generalizing acc s with
  | nil => exact ⟨acc, s, rfl, hacc⟩
  | cons q l ih =>
    obtain ⟨s1, h1⟩ := queryUnbatched_honest t hd q (hq q (List.mem_cons_self ..)) acc s
    rw [foldM_cons, bind_ok h1]
    refine ih (fun y hy => hl y (List.mem_cons_of_mem _ hy)) (fun y hy => hq y (List.mem_cons_of_mem _ hy)) _ ?_ s1
    obtain ⟨m, p, hm, rfl⟩ := hl q (List.mem_cons_self ..)
    exact hacc.set (E := fun m p => entryFor (ans (mkRequest m p))) hm

theorem executeQuery_name (m : String) : executeQuery t (.name m) = (do
    let result ← executeSingle t m .null
    let entry ← completeEntry (some fun m _ n => fetchPage t m n) m .null (.value result)
    pure [(m, entry)]) := rfl

theorem executeQuery_one (m : String) (p : Json) : executeQuery t (.dict [(m, p)]) = (do
    let result ← executeSingle t m p
    let entry ← completeEntry (some fun m _ n => fetchPage t m n) m p (.value result)
    pure [(m, entry)]) := rfl

theorem executeQuery_many (requests : Dict String Json) (h : requests.length ≠ 1) :
    executeQuery t (.dict requests) = executeMultiple t (some fun m _ n => fetchPage t m n) requests := by
  match requests with
  | [] => rfl
  | [_] => simp at h
  | _ :: _ :: _ => rfl

theorem executeMultiple_apply (pager : Pager σ) (requests : Dict String Json) (s : St σ) (h : s.batchSize ≠ 1) :
    executeMultiple t pager requests s =
      (foldM (sendBatch t pager requests (requests.length == 1) (multiRequests requests) s.batchSize) []
        (batchStarts requests.length s.batchSize) >>= fun acc =>
        foldM (queryMissing t (requests.length == 1)) acc requests) s := by
  unfold executeMultiple
  rw [bind_apply, get_apply]
  simp only [h, if_false]

theorem executeMultiple_one (pager : Pager σ) (requests : Dict String Json) (s : St σ) (h : s.batchSize = 1) :
    executeMultiple t pager requests s =
      foldM (queryUnbatched t (requests.length == 1)) [] (multiRequests requests) s := by
  unfold executeMultiple
  rw [bind_apply, get_apply]
  simp only [h, if_true]

theorem executeQuery_single_quiet (m : String) (p : Json) :
    Rel Quiet (do
      let result ← executeSingle t m p
      let entry ← completeEntry (some fun m _ n => fetchPage t m n) m p (.value result)
      pure [(m, entry)] : PyM (St σ) (Dict String Entry)) := by
  refine Rel.bind Quiet.trans (executeSingle_quiet t _ _) fun _ => ?_
  refine Rel.bind Quiet.trans (completeEntry_quiet _ (smartPager_quiet t) _ _ _) fun _ => ?_
  exact Rel.pure Quiet.refl _

/-- Once the batch size is one, an attempt sends no batch and keeps it so. -/
theorem executeQuery_quiet_of_one (q : Query) (s : St σ) (h : s.batchSize = 1) :
    Quiet s (executeQuery t q s).2 := by
  cases q with
  | name m => rw [executeQuery_name]; exact executeQuery_single_quiet t m .null s
  | dict requests =>
    by_cases hl : requests.length = 1
    · match requests, hl with
      | [(m, p)], _ => rw [executeQuery_one]; exact executeQuery_single_quiet t m p s
    · rw [executeQuery_many t requests hl]
      exact executeMultiple_quiet_of_one t _ requests s h

theorem toBatch_eq (requests : Dict String Json) : toBatch requests = multiRequests requests := by
  unfold toBatch multiRequests
  congr 1
  apply List.filter_congr
  intro x _
  simp [neverBatched, forceSingleRequest]

theorem requestFor_eq (m : String) (p : Json) : requestFor m p = mkRequest m p := rfl

/-- What a multi-request attempt puts on the wire. -/
theorem executeMultiple_wire (pager : Pager σ) (hp : QuietPager pager) (requests : Dict String Json) (s : St σ)
    (h1 : s.batchSize ≠ 1) (h0 : s.batchSize ≠ 0) :
    ∃ ws, (executeMultiple t pager requests s).2.wire = s.wire ++ ws ∧
      (∀ b ∈ batches ws, b.length ≤ s.batchSize) ∧
      (batches ws).flatten <+: multiRequests requests ∧
      ((∃ r, (executeMultiple t pager requests s).1 = .ok r) → (batches ws).flatten = multiRequests requests) := by
  rw [executeMultiple_apply t pager requests s h1]
  obtain ⟨ws, done, e1, p1, b1, hok⟩ := batches_fold t pager hp requests (requests.length == 1)
    (multiRequests requests) s.batchSize (batchStarts requests.length s.batchSize) [] s
  have hlen : ∀ b ∈ batches ws, b.length ≤ s.batchSize := by
    intro b hb
    rw [b1, List.mem_map] at hb
    obtain ⟨i, _, rfl⟩ := hb
    simp; omega
  have hall : ((batchStarts requests.length s.batchSize).map
      fun i => ((multiRequests requests).drop i).take s.batchSize).flatten = multiRequests requests := by
    rw [batchStarts_eq, List.map_map]
    have := flatten_batches (multiRequests requests) s.batchSize ((requests.length + s.batchSize - 1) / s.batchSize)
    have hl : (multiRequests requests).length ≤ (requests.length + s.batchSize - 1) / s.batchSize * s.batchSize :=
      Nat.le_trans (multiRequests_length requests) (starts_cover _ _ (by omega))
    rw [List.take_of_length_le hl] at this
    exact this
  have hall' := hall
  have hpre : (batches ws).flatten <+: multiRequests requests := by
    obtain ⟨rest, hrest⟩ := p1
    rw [← hrest, List.map_append, List.flatten_append] at hall
    rw [b1]
    exact ⟨_, hall⟩
  rw [bind_apply]
  cases hf : foldM (sendBatch t pager requests (requests.length == 1) (multiRequests requests) s.batchSize) []
      (batchStarts requests.length s.batchSize) s with
  | mk r s1 =>
    rw [hf] at e1 hok
    simp only at e1
    cases r with
    | error e => exact ⟨ws, e1, hlen, hpre, by rintro ⟨r, h⟩; simp at h⟩
    | ok acc =>
      simp only
      have hd : done = batchStarts requests.length s.batchSize := hok ⟨acc, s1, rfl⟩
      obtain ⟨ws2, e2, b2, _⟩ := Rel.foldM Quiet.refl Quiet.trans
        (queryMissing_quiet t (requests.length == 1)) acc requests s1
      have hb : batches (ws ++ ws2) = batches ws := by rw [batches_append, b2, List.append_nil]
      refine ⟨ws ++ ws2, ?_, ?_, ?_, ?_⟩
      · rw [e2, e1, List.append_assoc]
      · rw [hb]; exact hlen
      · rw [hb]; exact hpre
      · intro _; rw [hb, b1, hd]; exact hall'

/-- An honest device with an enabled batch size: the whole multi-request. -/
theorem executeMultiple_honest {ans : Request → Answer} (hd : Honest t ans) (hu : Unpaged ans) (pager : Pager σ)
    (requests : Dict String Json) (hwf : Dict.WF requests) (hlen : requests.length ≠ 1) (s : St σ)
    (h1 : s.batchSize ≠ 1) :
    ∃ r s', executeMultiple t pager requests s = (.ok r, s') ∧
      (∀ m, m ∈ r.keys ↔ m ∈ requests.keys) ∧
      ∀ m p, (m, p) ∈ requests → Dict.get? r m = some (entryFor (ans (mkRequest m p))) := by
  have hl : (requests.length == 1) = false := by simpa using hlen
  rw [executeMultiple_apply t pager requests s h1, hl]
  have hE : Completes pager ans (fun m p => entryFor (ans (mkRequest m p))) requests := by
    intro m p _ s
    exact ⟨s, completeEntry_unpaged pager m p _ (hu _) s⟩
  obtain ⟨acc, s1, e1, r1, _, _⟩ := sendBatch_fold_honest t hd hwf hE s.batchSize
    (batchStarts requests.length s.batchSize) [] (by intro m e h; simp at h) s
  rw [bind_ok e1]
  obtain ⟨r, s', e2, r2, k1, k2⟩ := queryMissing_fold_honest t hd requests _ (fun m p _ => rfl) requests
    (fun _ h => h) acc r1 s1
  refine ⟨r, s', e2, ?_, ?_⟩
  · intro m
    constructor
    · intro hm
      cases hg : Dict.get? r m with
      | none => exact absurd hm (Dict.get?_eq_none_iff.mp hg)
      | some e =>
        obtain ⟨p, hp, _⟩ := r2 m e hg
        exact List.mem_map.mpr ⟨(m, p), hp, rfl⟩
    · exact k2 m
  · intro m p hm
    have hk : m ∈ r.keys := k2 m (List.mem_map.mpr ⟨(m, p), hm, rfl⟩)
    cases hg : Dict.get? r m with
    | none => exact absurd hk (Dict.get?_eq_none_iff.mp hg)
    | some e =>
      obtain ⟨p', hp', rfl⟩ := r2 m e hg
      have h1 := Dict.get?_of_mem hwf hm
      have h2 := Dict.get?_of_mem hwf hp'
      rw [h1] at h2
      cases h2
      rfl

/-- An honest device with batches disabled. -/
theorem executeMultiple_one_honest {ans : Request → Answer}
    (hd : ∀ r w, ∃ resp w', t.send (.single r) w = (.ok resp, w') ∧ Carries resp (ans r)) (pager : Pager σ)
    (requests : Dict String Json) (hwf : Dict.WF requests) (hlen : requests.length ≠ 1) (s : St σ)
    (h1 : s.batchSize = 1)
    (hres : ∀ m p, (m, p) ∈ requests → (ans (mkRequest m p)).1 = 0 → (ans (mkRequest m p)).2 ≠ none) :
    ∃ r s', executeMultiple t pager requests s = (.ok r, s') ∧
      (∀ m, m ∈ r.keys ↔ m ∈ requests.keys ∧ m ∉ forceSingleRequest) ∧
      ∀ m p, (m, p) ∈ requests → m ∉ forceSingleRequest →
        Dict.get? r m = some (entryFor (ans (mkRequest m p))) := by
  have hl : (requests.length == 1) = false := by simpa using hlen
  rw [executeMultiple_one t pager requests s h1, hl]
  obtain ⟨r, s', e1, r1⟩ := queryUnbatched_fold_honest t hd requests (multiRequests requests)
    (by intro q hq; obtain ⟨m, p, h, _, rfl⟩ := mem_multiRequests.mp hq; exact ⟨m, p, h, rfl⟩)
    (by intro q hq; obtain ⟨m, p, h, _, rfl⟩ := mem_multiRequests.mp hq; exact hres m p h)
    [] (by intro m e h; simp at h) s
  have hk := queryUnbatched_fold_keys t false (multiRequests requests) [] r s s' e1
  have hkeys : ∀ m, m ∈ r.keys ↔ m ∈ requests.keys ∧ m ∉ forceSingleRequest := by
    intro m
    rw [hk m]
    simp only [Dict.keys_nil, List.not_mem_nil, false_or, List.mem_map]
    constructor
    · rintro ⟨q, hq, rfl⟩
      obtain ⟨m, p, h, hf, rfl⟩ := mem_multiRequests.mp hq
      exact ⟨List.mem_map.mpr ⟨(m, p), h, rfl⟩, hf⟩
    · rintro ⟨h, hf⟩
      obtain ⟨⟨m', p⟩, hmp, rfl⟩ := List.mem_map.mp h
      exact ⟨mkRequest m' p, mem_multiRequests.mpr ⟨m', p, hmp, hf, rfl⟩, rfl⟩
  refine ⟨r, s', e1, hkeys, ?_⟩
  intro m p hm hf
  have hk : m ∈ r.keys := (hkeys m).mpr ⟨List.mem_map.mpr ⟨(m, p), hm, rfl⟩, hf⟩
  cases hg : Dict.get? r m with
  | none => exact absurd hk (Dict.get?_eq_none_iff.mp hg)
  | some e =>
    obtain ⟨p', hp', rfl⟩ := r1 m e hg
    have h1 := Dict.get?_of_mem hwf hm
    have h2 := Dict.get?_of_mem hwf hp'
    rw [h1] at h2
    cases h2
    rfl

/-! ## Paging -/

theorem pages_done (fetch : Nat → PyM (St σ) Json) (name : String) (sum : Int) (items : List Json) (s : St σ)
    (h : ¬ (items.length : Int) < sum) : pages fetch name sum items s = (.ok items, s) := by
  rw [pages]; simp only [h, dif_neg, not_false_eq_true]

theorem pages_step (fetch : Nat → PyM (St σ) Json) (name : String) (sum : Int) (items : List Json) (s s' : St σ)
    (nb x : Json) (xs : List Json) (h : (items.length : Int) < sum) (hf : fetch items.length s = (.ok nb, s'))
    (hn : nextBatchList name nb = .ok (x :: xs)) :
    pages fetch name sum items s = pages fetch name sum (items ++ x :: xs) s' := by
  rw [pages]; simp only [h, dif_pos, hf, hn]

/-- Any device: the loop sends at most as many requests as elements are missing. -/
theorem pages_bound (fetch : Nat → PyM (St σ) Json)
    (hf : ∀ n s, (fetch n s).2.wire.length ≤ s.wire.length + 1) (name : String)
    (sum : Int) (items : List Json) (s : St σ) :
    (pages fetch name sum items s).2.wire.length ≤ s.wire.length + (sum - items.length).toNat := by
  induction items, s using pages.induct (fetch := fetch) (name := name) (sum := sum) with
  | case1 items s h e s' he =>
    rw [pages]; simp only [h, dif_pos, he]
    have := hf items.length s; rw [he] at this; simp only at this; omega
  | case2 items s h nb s' he e hn =>
    rw [pages]; simp only [h, dif_pos, he, hn]
    have := hf items.length s; rw [he] at this; simp only at this; omega
  | case3 items s h nb s' he hn =>
    rw [pages]; simp only [h, dif_pos, he, hn]
    have := hf items.length s; rw [he] at this; simp only at this; omega
  | case4 items s h nb s' he x xs hn ih =>
    rw [pages]; simp only [h, dif_pos, he, hn]
    have := hf items.length s; rw [he] at this; simp only at this
    simp only [List.length_append, List.length_cons] at ih
    omega
  | case5 items s h =>
    rw [pages]; simp only [h, dif_neg, not_false_eq_true]; omega

/-- Any device: what was collected stays in front, and the loop stops short of the announced sum only after a page
without elements. -/
theorem pages_stop (fetch : Nat → PyM (St σ) Json) (name : String) (sum : Int) (items r : List Json) (s s' : St σ)
    (h : pages fetch name sum items s = (.ok r, s')) :
    items <+: r ∧ (sum ≤ r.length ∨ ∃ s1 nb, fetch r.length s1 = (.ok nb, s') ∧ nextBatchList name nb = .ok []) := by
  induction items, s using pages.induct (fetch := fetch) (name := name) (sum := sum) with
  | case1 items s h1 e s1 he =>
    rw [pages] at h; simp only [h1, dif_pos, he] at h; simp at h
  | case2 items s h1 nb s1 he e hn =>
    rw [pages] at h; simp only [h1, dif_pos, he, hn] at h; simp at h
  | case3 items s h1 nb s1 he hn =>
    rw [pages] at h; simp only [h1, dif_pos, he, hn, Prod.mk.injEq, Except.ok.injEq] at h
    obtain ⟨rfl, rfl⟩ := h
    exact ⟨List.prefix_rfl, Or.inr ⟨s, nb, he, hn⟩⟩
  | case4 items s h1 nb s1 he x xs hn ih =>
    rw [pages] at h; simp only [h1, dif_pos, he, hn] at h
    obtain ⟨h2, h3⟩ := ih h
    exact ⟨List.IsPrefix.trans (List.prefix_append _ _) h2, h3⟩
  | case5 items s h1 =>
    rw [pages] at h; simp only [h1, dif_neg, not_false_eq_true, Prod.mk.injEq, Except.ok.injEq] at h
    obtain ⟨rfl, rfl⟩ := h
    exact ⟨List.prefix_rfl, Or.inl (by omega)⟩

theorem firstListKey_append (pre post : List (String × Json)) (name : String) (xs : List Json)
    (h : ∀ k ys, (k, Json.arr ys) ∉ pre) : firstListKey (pre ++ (name, .arr xs) :: post) = some (name, xs) := by
  induction pre with
  | nil => rfl
  | cons p pre ih =>
    obtain ⟨k, v⟩ := p
    have ih' := ih (fun k ys hk => h k ys (List.mem_cons_of_mem _ hk))
    cases v with
    | arr ys => exact absurd (List.mem_cons_self ..) (h k ys)
    | _ => simpa [firstListKey] using ih'

theorem get?_middle (pre post : List (String × Json)) (name : String) (v : Json)
    (h : Dict.WF (pre ++ (name, v) :: post)) : Dict.get? (pre ++ (name, v) :: post) name = some v :=
  Dict.get?_of_mem h (by simp)

theorem executeSingle_carries {m : String} {p : Json} {resp v : Json} {s : St σ} {w' : σ}
    (h1 : t.send (.single (mkRequest m p)) s.world = (.ok resp, w')) (h2 : Carries resp (0, some v)) :
    executeSingle t m p s = (.ok v, { s with world := w', wire := s.wire ++ [.single (mkRequest m p)] }) := by
  unfold executeSingle
  rw [bind_apply, send_apply, h1]
  simp only
  rw [bind_apply, lift_apply, checkResponse_carries_raise h2]
  simp only [CodesSpec.expected, if_true, pure_apply]
  rw [h2.2.2]
  rfl

theorem fetchPage_serves {method name : String} {L : List Json} (hs : Serves t method name L) (n : Nat) (s : St σ) :
    ∃ v s', fetchPage t method n s = (.ok v, s') ∧ PageOf name L n v ∧ s'.wire.length = s.wire.length + 1 := by
  have hreq : mkRequest method (.obj [("start_index", .num n)]) = ⟨method, some (.obj [("start_index", .num n)])⟩ := rfl
  have hst : startOf (some (.obj [("start_index", .num n)])) = n := rfl
  obtain ⟨resp, w', v, h1, h2, h3⟩ := hs (some (.obj [("start_index", .num n)])) s.world (by rw [hst]; omega)
  rw [hst] at h3
  rw [← hreq] at h1
  refine ⟨v, _, executeSingle_carries t h1 h2, by simpa using h3, by simp⟩

theorem take_extend (L items : List Json) (n : Nat) (h : items = L.take items.length) :
    items ++ (L.drop items.length).take n = L.take (items ++ (L.drop items.length).take n).length := by
  have h1 : L.take items.length ++ (L.drop items.length).take n = L.take (items.length + n) := (List.take_add ..).symm
  rw [← h] at h1
  rw [h1, List.length_take]
  by_cases hm : items.length + n ≤ L.length
  · rw [Nat.min_eq_left hm]
  · rw [Nat.min_eq_right (by omega), List.take_of_length_le (by omega), List.take_of_length_le (by omega)]

/-- A device that hands out `L`: the loop collects all of it. -/
theorem pages_serves {method name : String} {L : List Json} (hs : Serves t method name L) (k : Nat) (items : List Json)
    (s : St σ) (hk : k + items.length = L.length) (hitems : items = L.take items.length) :
    ∃ s', pages (fetchPage t method) name L.length items s = (.ok L, s') ∧
      s'.wire.length ≤ s.wire.length + k := by
  induction k using Nat.strongRecOn generalizing items s with
  | _ k ih =>
    by_cases hlt : (items.length : Int) < L.length
    · obtain ⟨v, s1, h1, ⟨pre, post, n, hn, hv, hwf, hpre, _, _⟩, hw⟩ := fetchPage_serves t hs items.length s
      subst hv
      have hnb : nextBatchList name (.obj (pre ++ (name, .arr ((L.drop items.length).take n)) :: post)) =
          .ok ((L.drop items.length).take n) := by
        simp only [nextBatchList, get?_middle _ _ _ _ hwf]
      cases hpg : (L.drop items.length).take n with
      | nil =>
        have : ((L.drop items.length).take n).length = 0 := by rw [hpg]; rfl
        simp only [List.length_take, List.length_drop] at this
        omega
      | cons x xs =>
        rw [hpg] at hnb h1
        rw [pages_step (fetchPage t method) name L.length items s s1 _ x xs hlt h1 hnb]
        have hlen : (x :: xs).length = min n (L.length - items.length) := by
          rw [← hpg]; simp
        simp only [List.length_cons] at hlen
        obtain ⟨s', e1, e2⟩ := ih (L.length - (items ++ x :: xs).length)
          (by simp only [List.length_append, List.length_cons]; omega) (items ++ x :: xs) s1
          (by simp only [List.length_append, List.length_cons]; omega)
          (by
            rw [← hpg]
            exact take_extend L items n hitems)
        refine ⟨s', e1, ?_⟩
        simp only [List.length_append, List.length_cons] at e2
        omega
    · rw [pages_done _ _ _ _ _ hlt]
      have : items = L := by rw [hitems, List.take_of_length_le (by omega)]
      exact ⟨s, by rw [this], by omega⟩

/-- A first page is completed to the whole list. -/
theorem handleResponseLists_serves {method name : String} {L : List Json} (hs : Serves t method name L)
    {v : Json} (hv : PageOf name L 0 v) (s : St σ) :
    ∃ v' s', handleResponseLists (fetchPage t method) v s = (.ok v', s') ∧ v'.get? name = some (.arr L) ∧
      (∀ k, k ≠ name → v'.get? k = v.get? k) ∧ s'.wire.length + 1 ≤ s.wire.length + max 1 L.length := by
  obtain ⟨pre, post, n, hn, rfl, hwf, hpre, hsi, hsum⟩ := hv
  have hsum' : Dict.get? (pre ++ (name, .arr ((L.drop 0).take n)) :: post) "sum" = some (.num L.length) := hsum
  have hfirst := firstListKey_append pre post name ((L.drop 0).take n) hpre
  cases hsi' : Dict.get? (pre ++ (name, Json.arr ((L.drop 0).take n)) :: post) "start_index" with
  | none => exact absurd hsi' hsi
  | some si =>
    obtain ⟨s', e1, e2⟩ := pages_serves t hs (L.length - ((L.drop 0).take n).length) ((L.drop 0).take n) s
      (by simp only [List.length_take, List.length_drop]; omega)
      (by simp only [List.drop_zero, List.length_take]
          by_cases hm : n ≤ L.length
          · rw [Nat.min_eq_left hm]
          · rw [Nat.min_eq_right (by omega), List.take_of_length_le (by omega), List.take_of_length_le (by omega)])
    refine ⟨.obj (Dict.set (pre ++ (name, .arr ((L.drop 0).take n)) :: post) name (.arr L)), s', ?_, ?_, ?_, ?_⟩
    · unfold handleResponseLists
      simp only [hsi', hsum', hfirst]
      rw [bind_apply, lift_apply]
      simp only [sumValue]
      rw [bind_ok e1]
      rfl
    · exact Dict.get?_set_self _ _ _
    · intro k hk
      exact Dict.get?_set_ne _ _ (fun h => hk h.symm)
    · simp only [List.length_take, List.length_drop] at e2
      omega

/-! ## Falling back to single requests -/

/-- The reset operation of the retry loop. -/
theorem query_unfold (q : Query) (rc : Int) : query t q rc = Retry.smartQuery
    { attempt := fun _ => executeQuery t q
      reset := fun s => match t.reset s.world with | (r, world) => (r, { s with world := world })
      sleep := pure () } rc := rfl

/-- Nothing is batched any more. -/
def Settled (s s' : St σ) : Prop := s.batchSize = 1 → Quiet s s'

theorem Settled.trans (a b c : St σ) (h1 : Settled a b) (h2 : Settled b c) : Settled a c := by
  intro h
  have q1 := h1 h
  exact Quiet.trans _ _ _ q1 (h2 (by obtain ⟨_, _, _, e⟩ := q1; rw [e, h]))

theorem query_settled (q : Query) (rc : Int) : Rel Settled (query t q rc) := by
  rw [query_unfold]
  refine Retry.loop_rel (fun s _ => Quiet.refl s) Settled.trans true _ ?_ ?_ ?_ rc _
  · intro _ s h
    exact executeQuery_quiet_of_one t q s h
  · intro s h
    exact ⟨[], by simp, rfl, rfl⟩
  · intro s h
    exact Quiet.refl s

/-- The batch size is kept or set to one. -/
def KeptOrOne (s s' : St σ) : Prop := s'.batchSize = s.batchSize ∨ s'.batchSize = 1

theorem KeptOrOne.trans (a b c : St σ) (h1 : KeptOrOne a b) (h2 : KeptOrOne b c) : KeptOrOne a c := by
  unfold KeptOrOne at *
  rcases h1 with h1 | h1 <;> rcases h2 with h2 | h2 <;> omega

theorem keptOrOne_of_quiet {α : Type} {m : PyM (St σ) α} (h : Rel Quiet m) : Rel KeptOrOne m := by
  intro s
  obtain ⟨_, _, _, e⟩ := h s
  exact Or.inl e

theorem KeptOrOne.refl (s : St σ) : KeptOrOne s s := Or.inl rfl

theorem checkBatch_keptOrOne (resp : Json) : Rel (KeptOrOne (σ := σ)) (checkBatch resp) := by
  intro s
  rw [checkBatch_apply]
  split
  · exact Or.inl rfl
  · split
    · exact Or.inr rfl
    · exact Or.inl rfl

theorem executeQuery_keptOrOne (q : Query) : Rel KeptOrOne (executeQuery t q) := by
  have hmulti : ∀ requests, Rel KeptOrOne
      (executeMultiple t (some fun m _ n => fetchPage t m n) requests) := by
    intro requests
    unfold executeMultiple
    refine Rel.bind KeptOrOne.trans (Rel.get KeptOrOne.refl) fun s => ?_
    simp only
    split
    · exact Rel.foldM KeptOrOne.refl KeptOrOne.trans
        (fun acc x => keptOrOne_of_quiet (queryUnbatched_quiet t _ acc x)) _ _
    · refine Rel.bind KeptOrOne.trans (Rel.foldM KeptOrOne.refl KeptOrOne.trans ?_ _ _) fun acc => ?_
      · intro acc i
        unfold sendBatch
        refine Rel.bind KeptOrOne.trans (fun s => Or.inl rfl) fun resp => ?_
        refine Rel.bind KeptOrOne.trans (checkBatch_keptOrOne resp) fun _ => ?_
        refine Rel.bind KeptOrOne.trans (Rel.lift KeptOrOne.refl _) fun _ => ?_
        exact Rel.foldM KeptOrOne.refl KeptOrOne.trans (fun acc x =>
          keptOrOne_of_quiet (processResponse_quiet _ (smartPager_quiet t) _ _ acc x)) _ _
      · exact Rel.foldM KeptOrOne.refl KeptOrOne.trans
          (fun acc x => keptOrOne_of_quiet (queryMissing_quiet t _ acc x)) _ _
  cases q with
  | name m => rw [executeQuery_name]; exact keptOrOne_of_quiet (executeQuery_single_quiet t m .null)
  | dict requests =>
    by_cases hl : requests.length = 1
    · match requests, hl with
      | [(m, p)], _ => rw [executeQuery_one]; exact keptOrOne_of_quiet (executeQuery_single_quiet t m p)
    · rw [executeQuery_many t requests hl]
      exact hmulti requests

theorem query_keptOrOne (q : Query) (rc : Int) : Rel KeptOrOne (query t q rc) := by
  rw [query_unfold]
  refine Retry.loop_rel KeptOrOne.refl KeptOrOne.trans true _ ?_ ?_ ?_ rc _
  · intro _; exact executeQuery_keptOrOne t q
  · intro s; exact Or.inl rfl
  · intro s; exact Or.inl rfl

theorem expected_undecodable {c : Int} (h : CannotBatch c) :
    CodesSpec.expected c = .error (.device (some (CodesSpec.reported c))) ∧
      (CodesSpec.reported c = -1003 ∨ CodesSpec.reported c = -100000) := by
  unfold CodesSpec.expected
  rcases h with rfl | rfl | h
  · constructor
    · decide +kernel
    · exact Or.inl (by decide +kernel)
  · constructor
    · decide +kernel
    · exact Or.inr (by decide +kernel)
  · have h0 : c ≠ 0 := by rintro rfl; exact h Codes.zero_known
    have h1 : ¬ CodesSpec.Retryable c := fun hr => h (Codes.retryable_known hr)
    have h2 : ¬ CodesSpec.Authentication c := fun hr => h (Codes.authentication_known hr)
    simp [h0, h1, h2, CodesSpec.reported, h]

theorem executeMultiple_fallback (pager : Pager σ) (requests : Dict String Json) (s : St σ)
    (hlen : requests ≠ []) (h0 : s.batchSize ≠ 0) (h1 : s.batchSize ≠ 1) (resp : Json) (w' : σ) (c : Int)
    (hs : t.send (.multi ((multiRequests requests).take s.batchSize)) s.world = (.ok resp, w'))
    (hc : resp.get? "error_code" = some (.num c)) (hcb : CannotBatch c) :
    executeMultiple t pager requests s =
      (.error (.retryable none), ⟨1, w', s.wire ++ [.multi ((multiRequests requests).take s.batchSize)]⟩) := by
  rw [executeMultiple_apply t pager requests s h1]
  have hstarts : ∃ rest, batchStarts requests.length s.batchSize = 0 :: rest := by
    rw [batchStarts_eq]
    have hpos : 0 < requests.length := List.length_pos_iff.mpr hlen
    obtain ⟨k, hk⟩ : ∃ k, (requests.length + s.batchSize - 1) / s.batchSize = k + 1 := by
      refine ⟨(requests.length + s.batchSize - 1) / s.batchSize - 1, ?_⟩
      have : 0 < (requests.length + s.batchSize - 1) / s.batchSize := Nat.div_pos (by omega) (by omega)
      omega
    rw [hk, List.range_succ_eq_map]
    exact ⟨_, by simp; rfl⟩
  obtain ⟨rest, hrest⟩ := hstarts
  obtain ⟨kvs, rfl⟩ : ∃ kvs, resp = .obj kvs := by
    cases resp <;> simp [Json.get?] at hc ⊢
  have hc' : Dict.get? kvs "error_code" = some (.num c) := hc
  obtain ⟨hexp, hrep⟩ := expected_undecodable hcb
  have hcheck : checkResponse true (.obj kvs) = .error (.device (some (CodesSpec.reported c))) := by
    simp only [checkResponse, if_true, hc']
    rw [Codes.C09_protocol, hexp]
  have hb : sendBatch t pager requests (requests.length == 1) (multiRequests requests) s.batchSize [] 0 s =
      (.error (.retryable none), ⟨1, w', s.wire ++ [.multi ((multiRequests requests).take s.batchSize)]⟩) := by
    unfold sendBatch
    rw [List.drop_zero, bind_apply, send_apply, hs]
    simp only
    rw [bind_apply, checkBatch_apply, hcheck]
    have : ((Exc.device (some (CodesSpec.reported c))).isDeviceError &&
        ((Exc.device (some (CodesSpec.reported c))).code == some Codes.jsonDecodeFailError ||
          (Exc.device (some (CodesSpec.reported c))).code == some Codes.internalUnknownError) &&
        s.batchSize != 1) = true := by
      have hne : (s.batchSize != 1) = true := by simpa using h1
      rw [hne]
      rcases hrep with h | h <;> rw [h] <;> decide
    simp only [this, if_true]
  rw [hrest, foldM_cons, bind_apply, bind_apply, hb]

end
end Kasa.Smart
