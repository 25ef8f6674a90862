import Verif.Lemmas.SmartProtocol
/-!
# SMART queries: C06 (completeness of batches), C07 (fallback to single requests), C08 (list paging)
-/

namespace Kasa.Smart
open PyM SmartSpec

section
variable {σ : Type} (t : Transport σ)

/-- C06, any device whatsoever: when batching is enabled and the query returns, every requested method has an entry. -/
theorem C06_every_method (requests : Dict String Json) (s s' : St σ) (r : Dict String Entry)
    (hb : s.batchSize ≠ 1) (h : executeQuery t (.dict requests) s = (.ok r, s')) :
    ∀ m ∈ requests.keys, m ∈ r.keys := by
  by_cases hl : requests.length = 1
  · match requests, hl with
    | [(m, p)], _ =>
      rw [executeQuery_one] at h
      obtain ⟨res, s1, _, h2⟩ := bind_eq_ok h
      obtain ⟨e, s2, _, h3⟩ := bind_eq_ok h2
      simp only [pure_apply, Prod.mk.injEq, Except.ok.injEq] at h3
      rw [← h3.1]
      simp
  · rw [executeQuery_many t requests hl, executeMultiple_apply t _ requests s hb] at h
    obtain ⟨acc, s1, _, h2⟩ := bind_eq_ok h
    intro m hm
    exact (queryMissing_fold_keys t _ requests acc r s1 s' h2 m).mpr (Or.inr hm)

/-- C06, any device that does not volunteer methods it was not asked for: the result has no entry that was not
requested (whatever the batch size). -/
theorem C06_nothing_else (ho : OnlyAsked t) (requests : Dict String Json) (s s' : St σ) (r : Dict String Entry)
    (h : executeQuery t (.dict requests) s = (.ok r, s')) :
    ∀ m ∈ r.keys, m ∈ requests.keys := by
  by_cases hl : requests.length = 1
  · match requests, hl with
    | [(m, p)], _ =>
      rw [executeQuery_one] at h
      obtain ⟨res, s1, _, h2⟩ := bind_eq_ok h
      obtain ⟨e, s2, _, h3⟩ := bind_eq_ok h2
      simp only [pure_apply, Prod.mk.injEq, Except.ok.injEq] at h3
      rw [← h3.1]
      simp
  · rw [executeQuery_many t requests hl] at h
    intro m hm
    by_cases hb : s.batchSize = 1
    · rw [executeMultiple_one t _ requests s hb] at h
      have := (queryUnbatched_fold_keys t _ _ [] r s s' h m).mp hm
      simp only [Dict.keys_nil, List.not_mem_nil, false_or, List.mem_map] at this
      obtain ⟨q, hq, rfl⟩ := this
      obtain ⟨k, p, hk, _, rfl⟩ := mem_multiRequests.mp hq
      exact List.mem_map.mpr ⟨(k, p), hk, rfl⟩
    · rw [executeMultiple_apply t _ requests s hb] at h
      obtain ⟨acc, s1, h1, h2⟩ := bind_eq_ok h
      rcases (queryMissing_fold_keys t _ requests acc r s1 s' h2 m).mp hm with h3 | h3
      · rcases sendBatch_fold_keys t ho _ requests _ _ _ [] acc s s1 h1 m h3 with h4 | h4
        · simp at h4
        · exact h4
      · exact h3

/-- C06, any device: no batch is larger than the batch size; the batches, in order, hold exactly the batchable
requests in the caller's order when the query returns, and an initial segment of them when it fails.  In particular
nothing is batched twice and the methods that must not be batched never are. -/
theorem C06_batches (requests : Dict String Json) (s : St σ) (hb : s.batchSize ≠ 0) (hlen : requests.length ≠ 1) :
    ∃ ws, (executeQuery t (.dict requests) s).2.wire = s.wire ++ ws ∧
      (∀ b ∈ batches ws, b.length ≤ s.batchSize) ∧
      (batches ws).flatten <+: toBatch requests ∧
      (s.batchSize ≠ 1 → (∃ r, (executeQuery t (.dict requests) s).1 = .ok r) →
        (batches ws).flatten = toBatch requests) := by
  rw [executeQuery_many t requests hlen, toBatch_eq]
  by_cases h1 : s.batchSize = 1
  · obtain ⟨ws, e, b, _⟩ := executeMultiple_quiet_of_one t (some fun m _ n => fetchPage t m n) requests s h1
    exact ⟨ws, e, by simp [b], by simp [b], fun h => absurd h1 h⟩
  · obtain ⟨ws, e1, e2, e3, e4⟩ := executeMultiple_wire t _ (smartPager_quiet t) requests s h1 hb
    exact ⟨ws, e1, e2, e3, fun _ => e4⟩

/-- C06, honest device: whatever subset of each batch the device answers, in whatever order, the query succeeds and
returns for every requested method the device's result, or its error code; and nothing else. -/
theorem C06_honest_device {ans : Request → Answer} (hd : Honest t ans) (hu : Unpaged ans)
    (requests : Dict String Json) (hwf : Dict.WF requests) (hlen : requests.length ≠ 1) (s : St σ)
    (hb : s.batchSize ≠ 1) :
    ∃ r s', executeQuery t (.dict requests) s = (.ok r, s') ∧
      (∀ m, m ∈ r.keys ↔ m ∈ requests.keys) ∧
      ∀ m p, (m, p) ∈ requests → Dict.get? r m = some (entryFor (ans (requestFor m p))) := by
  rw [executeQuery_many t requests hlen]
  exact executeMultiple_honest t hd hu _ requests hwf hlen s hb

/-- C06 with batching disabled, honest device: complete and correct provided no method is one of those that are never
batched and every successful answer has a result.  Missing: these two cases, see `C06_batch_size_one_drops` and
`C06_batch_size_one_key_error`. -/
theorem C06_batch_size_one_partial {ans : Request → Answer} (hd : Honest t ans)
    (requests : Dict String Json) (hwf : Dict.WF requests) (hlen : requests.length ≠ 1) (s : St σ)
    (hb : s.batchSize = 1) (hforce : ∀ m ∈ requests.keys, m ∉ neverBatched)
    (hres : ∀ m p, (m, p) ∈ requests → (ans (requestFor m p)).1 = 0 → (ans (requestFor m p)).2 ≠ none) :
    ∃ r s', executeQuery t (.dict requests) s = (.ok r, s') ∧
      (∀ m, m ∈ r.keys ↔ m ∈ requests.keys) ∧
      ∀ m p, (m, p) ∈ requests → Dict.get? r m = some (entryFor (ans (requestFor m p))) := by
  rw [executeQuery_many t requests hlen]
  obtain ⟨r, s', e1, e2, e3⟩ := executeMultiple_one_honest t hd.single (some fun m _ n => fetchPage t m n)
    requests hwf hlen s hb hres
  refine ⟨r, s', e1, ?_, ?_⟩
  · intro m
    rw [e2 m]
    exact ⟨fun h => h.1, fun h => ⟨h, hforce m h⟩⟩
  · intro m p hm
    exact e3 m p hm (hforce m (List.mem_map.mpr ⟨(m, p), hm, rfl⟩))

/-- The full C06 fails with batching disabled (batch size one, be it configured or after a fallback), for every
device: a method that must not be batched is never asked for and is silently missing from the result. -/
theorem C06_batch_size_one_drops (requests : Dict String Json) (hlen : requests.length ≠ 1) (s s' : St σ)
    (hb : s.batchSize = 1) (r : Dict String Entry) (h : executeQuery t (.dict requests) s = (.ok r, s')) :
    ∀ m ∈ neverBatched, m ∉ r.keys := by
  intro m hm hk
  rw [executeQuery_many t requests hlen, executeMultiple_one t _ requests s hb] at h
  have := (queryUnbatched_fold_keys t _ _ [] r s s' h m).mp hk
  simp only [Dict.keys_nil, List.not_mem_nil, false_or, List.mem_map] at this
  obtain ⟨q, hq, rfl⟩ := this
  obtain ⟨k, p, _, hf, rfl⟩ := mem_multiRequests.mp hq
  exact hf hm

/-! ## C07 -/

/-- C07: whatever the device does, a query leaves the batch size as it was or sets it to one. -/
theorem C07_only_to_one (q : Query) (rc : Int) (s : St σ) :
    (query t q rc s).2.batchSize = s.batchSize ∨ (query t q rc s).2.batchSize = 1 :=
  query_keptOrOne t q rc s

/-- Run a history of queries, each with its retry count. -/
def history (t : Transport σ) : List (Query × Int) → St σ → St σ
  | [], s => s
  | (q, rc) :: qs, s => history t qs (query t q rc s).2

/-- C07: once the batch size is one, no history of queries, whatever the device does, sends another batch or changes
the batch size. -/
theorem C07_sticky (qs : List (Query × Int)) (s : St σ) (h : s.batchSize = 1) :
    (history t qs s).batchSize = 1 ∧
    ∃ ws, (history t qs s).wire = s.wire ++ ws ∧ batches ws = [] := by
  induction qs generalizing s with
  | nil => exact ⟨h, [], by simp [history], rfl⟩
  | cons x qs ih =>
    obtain ⟨q, rc⟩ := x
    obtain ⟨ws, e, b, z⟩ := query_settled t q rc s h
    obtain ⟨h1, ws', e', b'⟩ := ih (query t q rc s).2 (by rw [z, h])
    exact ⟨h1, ws ++ ws', by unfold history; rw [e', e, List.append_assoc], by rw [batches_append, b, b']; rfl⟩

/-- C07: when the device shows that it cannot read the first batch, nothing else is sent in this attempt, batching is
disabled, and the attempt ends with a retryable error. -/
theorem C07_fallback (requests : Dict String Json) (s : St σ) (hlen : 2 ≤ requests.length)
    (h0 : s.batchSize ≠ 0) (h1 : s.batchSize ≠ 1) (resp : Json) (w' : σ) (c : Int)
    (hs : t.send (.multi ((toBatch requests).take s.batchSize)) s.world = (.ok resp, w'))
    (hc : resp.get? "error_code" = some (.num c)) (hcb : CannotBatch c) :
    executeQuery t (.dict requests) s =
      (.error (.retryable none), ⟨1, w', s.wire ++ [.multi ((toBatch requests).take s.batchSize)]⟩) := by
  rw [executeQuery_many t requests (by omega), toBatch_eq]
  rw [toBatch_eq] at hs
  exact executeMultiple_fallback t _ requests s (by rintro rfl; simp at hlen) h0 h1 resp w' c hs hc hcb

/-- C07: a device that answers single requests but cannot read batches.  A query that may be retried at least once
succeeds, with the right entry for every method (under the conditions of `C06_batch_size_one_partial`). -/
theorem C07_recovers {ans : Request → Answer}
    (hsingle : ∀ r w, ∃ resp w', t.send (.single r) w = (.ok resp, w') ∧ Carries resp (ans r))
    (hmulti : ∀ rs w, ∃ resp w' c, t.send (.multi rs) w = (.ok resp, w') ∧
      resp.get? "error_code" = some (.num c) ∧ CannotBatch c)
    (hreset : ∀ w, (t.reset w).1 = .ok ())
    (requests : Dict String Json) (hwf : Dict.WF requests) (hlen : 2 ≤ requests.length)
    (hforce : ∀ m ∈ requests.keys, m ∉ neverBatched)
    (hres : ∀ m p, (m, p) ∈ requests → (ans (requestFor m p)).1 = 0 → (ans (requestFor m p)).2 ≠ none)
    (retryCount : Nat) (hrc : 1 ≤ retryCount) (s : St σ) (h0 : s.batchSize ≠ 0) (h1 : s.batchSize ≠ 1) :
    ∃ r s', query t (.dict requests) retryCount s = (.ok r, s') ∧ s'.batchSize = 1 ∧
      (∀ m, m ∈ r.keys ↔ m ∈ requests.keys) ∧
      ∀ m p, (m, p) ∈ requests → Dict.get? r m = some (entryFor (ans (requestFor m p))) := by
  obtain ⟨resp, w', c, e1, e2, e3⟩ := hmulti ((toBatch requests).take s.batchSize) s.world
  have hfb := C07_fallback t requests s hlen h0 h1 resp w' c e1 e2 e3
  generalize hs1 : (⟨1, w', s.wire ++ [.multi ((toBatch requests).take s.batchSize)]⟩ : St σ) = s1 at hfb
  have hb1 : s1.batchSize = 1 := by rw [← hs1]
  let s2 : St σ := { s1 with world := (t.reset s1.world).2 }
  have hb2 : s2.batchSize = 1 := hb1
  obtain ⟨r, s', f1, f2, f3⟩ := executeMultiple_one_honest t hsingle (some fun m _ n => fetchPage t m n)
    requests hwf (by omega) s2 hb2 hres
  rw [← executeQuery_many t requests (by omega)] at f1
  refine ⟨r, s', ?_, ?_, ?_, ?_⟩
  · rw [query_unfold]
    unfold Retry.smartQuery
    have hr : ((retryCount : Int) + 1).toNat = retryCount + 1 := by omega
    obtain ⟨k, rfl⟩ : ∃ k, retryCount = k + 1 := ⟨retryCount - 1, by omega⟩
    rw [hr, List.range_succ_eq_map, List.range_succ_eq_map]
    simp only [List.map_cons, Retry.loop]
    rw [tryExcept_error hfb]
    simp only
    have hreset' : (fun s : St σ => (match t.reset s.world with | (r, world) => (r, { s with world := world }) : Except Exc Unit × St σ)) s1
        = (.ok (), s2) := by
      have := hreset s1.world
      show ((t.reset s1.world).1, { s1 with world := (t.reset s1.world).2 }) = _
      rw [this]
    rw [bind_ok (m := (fun s : St σ => (match t.reset s.world with | (r, world) => (r, { s with world := world }) : Except Exc Unit × St σ))) hreset']
    rw [if_neg (by omega), if_pos trivial]
    simp only [pure_bind']
    rw [tryExcept_ok f1]
  · have := executeQuery_quiet_of_one t (.dict requests) s2 hb2
    rw [f1] at this
    obtain ⟨_, _, _, z⟩ := this
    rw [z, hb2]
  · intro m
    rw [f2 m]
    exact ⟨fun h => h.1, fun h => ⟨h, hforce m h⟩⟩
  · intro m p hm
    exact f3 m p hm (hforce m (List.mem_map.mpr ⟨(m, p), hm, rfl⟩))

/-! ## C08 -/

/-- C08: a list that the device hands out in pages of any sizes is returned complete and in order by a single-method
query, with at most one request per element. -/
theorem C08_complete_list {method name : String} {L : List Json} (hs : Serves t method name L) (params : Json)
    (hp : startOf (requestFor method params).params = 0) (s : St σ) :
    ∃ v s', executeQuery t (.dict [(method, params)]) s = (.ok [(method, .value v)], s') ∧
      v.get? name = some (.arr L) ∧ s'.wire.length ≤ s.wire.length + max 1 L.length := by
  obtain ⟨resp, w', v, h1, h2, h3⟩ := hs (requestFor method params).params s.world (by omega)
  rw [hp] at h3
  have he := executeSingle_carries t (m := method) (p := params) (s := s) h1 h2
  have htruthy : v.truthy = true := by
    obtain ⟨pre, post, n, _, rfl, _⟩ := h3
    simp [Json.truthy]
  obtain ⟨v', s', g1, g2, _, g4⟩ := handleResponseLists_serves t hs h3
    { s with world := w', wire := s.wire ++ [.single (mkRequest method params)] }
  refine ⟨v', s', ?_, g2, ?_⟩
  · rw [executeQuery_one, bind_ok he, completeEntry_value, if_pos htruthy]
    rw [bind_apply, bind_ok g1]
    rfl
  · simp only [List.length_append, List.length_cons, List.length_nil] at g4
    omega

/-- C08 in batches: a device that answers all of every batch, with paged results where `lists` says so.  Every requested
list is returned complete. -/
theorem C08_batched_partial {ans : Request → Answer} (hd : Honest t ans) (hall : AnswersAll t ans)
    (lists : String → Option (String × List Json))
    (hserve : ∀ m name L, lists m = some (name, L) → Serves t m name L)
    (requests : Dict String Json)
    (hpage : ∀ m name L p, (m, p) ∈ requests → lists m = some (name, L) → ∃ v, ans (requestFor m p) = (0, some v) ∧ PageOf name L 0 v)
    (hplain : ∀ m p, (m, p) ∈ requests → lists m = none → ∀ v, (ans (requestFor m p)).2 = some v → v.get? "start_index" = none)
    (hwf : Dict.WF requests) (hlen : requests.length ≠ 1) (s : St σ)
    (h0 : s.batchSize ≠ 0) (h1 : s.batchSize ≠ 1)
    (hforce : ∀ m ∈ requests.keys, m ∉ neverBatched ∧ m ≠ "")
    (m : String) (p : Json) (hm : (m, p) ∈ requests) (name : String) (L : List Json) (hL : lists m = some (name, L)) :
    ∃ r s' v, executeQuery t (.dict requests) s = (.ok r, s') ∧ Dict.get? r m = some (.value v) ∧
      v.get? name = some (.arr L) := by
  have hl : (requests.length == 1) = false := by simpa using hlen
  rw [executeQuery_many t requests hlen, executeMultiple_apply t _ requests s h1, hl]
  -- what each entry becomes: chosen by the device's state, so only its relevant part is tracked
  have key : ∀ (items : List Json), (∀ item ∈ items, ∃ m p, (m, p) ∈ requests ∧
      item.get? "method" = some (.str m) ∧ Carries item (ans (mkRequest m p))) →
      ∀ acc : Dict String Entry, (∀ k name L e, lists k = some (name, L) → Dict.get? acc k = some e →
        ∃ v, e = .value v ∧ v.get? name = some (.arr L)) → ∀ s : St σ,
      ∃ r s', foldM (processResponse (some fun m _ n => fetchPage t m n) requests false) acc items s = (.ok r, s') ∧
        (∀ k name L e, lists k = some (name, L) → Dict.get? r k = some e →
          ∃ v, e = .value v ∧ v.get? name = some (.arr L)) ∧
        (∀ k, k ∈ acc.keys → k ∈ r.keys) ∧
        (∀ item ∈ items, ∀ m, item.get? "method" = some (.str m) → m ≠ "" → m ∈ r.keys) := by
    intro items
    induction items with
    | nil => exact fun _ acc hacc s => ⟨acc, s, rfl, hacc, fun _ h => h, by simp⟩
    | cons item items ih =>
      intro hitems acc hacc s
      obtain ⟨k, q, hk, hmeth, hc⟩ := hitems item (List.mem_cons_self ..)
      have hget : Dict.get? requests k = some q := Dict.get?_of_mem hwf hk
      have hne : k ≠ "" := (hforce k (List.mem_map.mpr ⟨(k, q), hk, rfl⟩)).2
      have hone : ∃ e s1, completeEntry (some fun m _ n => fetchPage t m n) k q (entryFor (ans (mkRequest k q))) s
            = (.ok e, s1) ∧
          ∀ name L, lists k = some (name, L) → ∃ v, e = .value v ∧ v.get? name = some (.arr L) := by
        cases hlk : lists k with
        | none => exact ⟨_, s, completeEntry_unpaged _ k q _ (hplain k q hk hlk) s, by simp⟩
        | some x =>
          obtain ⟨name, L⟩ := x
          obtain ⟨v, hv1, hv2⟩ := hpage k name L q hk hlk
          have hv1' : ans (mkRequest k q) = (0, some v) := hv1
          have htruthy : v.truthy = true := by
            obtain ⟨pre, post, n, _, rfl, _⟩ := hv2
            simp [Json.truthy]
          obtain ⟨v', s1, g1, g2, _⟩ := handleResponseLists_serves t (hserve k name L hlk) hv2 s
          refine ⟨.value v', s1, ?_, ?_⟩
          · rw [hv1']
            simp only [entryFor, if_true, Option.getD_some]
            rw [completeEntry_value, if_pos htruthy, bind_ok g1]
            rfl
          · intro name' L' h
            cases h
            exact ⟨v', rfl, g2⟩
      obtain ⟨e, s1, he, hel⟩ := hone
      have hproc : processResponse (some fun m _ n => fetchPage t m n) requests false acc item s =
          (.ok (acc.set k e), s1) := by
        obtain ⟨kvs, hkv⟩ := hc.1
        subst hkv
        have hmeth' : Dict.get? kvs "method" = some (.str k) := hmeth
        unfold processResponse
        simp only [hmeth', hne, if_false]
        rw [bind_apply, lift_apply, checkResponse_carries hc]
        simp only
        rw [resultGet_carries hc, hget]
        simp only [Option.getD_some]
        rw [bind_ok he]
        rfl
      rw [foldM_cons, bind_ok hproc]
      obtain ⟨r, s', f1, f2, f3, f4⟩ := ih (fun y hy => hitems y (List.mem_cons_of_mem _ hy)) (acc.set k e) (by
        intro k' name L e' hl' he'
        rw [Dict.get?_set] at he'
        split at he'
        · rename_i heq; subst heq; cases he'; exact hel name L hl'
        · exact hacc k' name L e' hl' he') s1
      refine ⟨r, s', f1, f2, fun k' hk' => f3 k' (by rw [Dict.mem_keys_set]; exact Or.inr hk'), ?_⟩
      intro it hit k' hk' hne'
      rw [List.mem_cons] at hit
      rcases hit with rfl | hit
      · rw [hmeth] at hk'; cases hk'
        exact f3 _ (by rw [Dict.mem_keys_set]; exact Or.inl rfl)
      · exact f4 it hit k' hk' hne'
  have keyB : ∀ (is : List Nat) (acc : Dict String Entry), (∀ k name L e, lists k = some (name, L) →
        Dict.get? acc k = some e → ∃ v, e = .value v ∧ v.get? name = some (.arr L)) → ∀ s1 : St σ,
      ∃ r s', foldM (sendBatch t (some fun m _ n => fetchPage t m n) requests false (multiRequests requests) s.batchSize)
          acc is s1 = (.ok r, s') ∧
        (∀ k name L e, lists k = some (name, L) → Dict.get? r k = some e →
          ∃ v, e = .value v ∧ v.get? name = some (.arr L)) ∧
        (∀ k, k ∈ acc.keys → k ∈ r.keys) ∧
        (∀ i ∈ is, ∀ q ∈ ((multiRequests requests).drop i).take s.batchSize, q.method ∈ r.keys) := by
    intro is
    induction is with
    | nil => exact fun acc hacc s1 => ⟨acc, s1, rfl, hacc, fun _ h => h, by simp⟩
    | cons i is ih =>
      intro acc hacc s1
      obtain ⟨resp, items, w', g1, g2, ⟨res, g3, g4⟩, g5⟩ :=
        hd.multi (((multiRequests requests).drop i).take s.batchSize) s1.world
      obtain ⟨kvs, rfl⟩ : ∃ kvs, resp = .obj kvs := by
        cases resp <;> simp [Json.get?] at g2 ⊢
      obtain ⟨kvs', rfl⟩ : ∃ kvs', res = .obj kvs' := by
        cases res <;> simp [Json.get?] at g4 ⊢
      have hcheck : checkResponse true (.obj kvs) = .ok none := by
        have g2' : Dict.get? kvs "error_code" = some (.num 0) := g2
        simp only [checkResponse, if_true, g2']
        rw [Codes.C09_protocol]; simp [CodesSpec.expected]
      have hbr : batchResponses (.obj kvs) = .ok items := by
        have g4' : Dict.get? kvs' "responses" = some (.arr items) := g4
        simp only [batchResponses, g3, g4']
      obtain ⟨r1, s2, f1, f2, f3, f4⟩ := key items (by
          intro item hi
          obtain ⟨r, hr, hr1, hr2⟩ := g5 item hi
          obtain ⟨m, p, hm, _, rfl⟩ := mem_multiRequests.mp (List.mem_of_mem_drop (List.mem_of_mem_take hr))
          exact ⟨m, p, hm, hr1, hr2⟩) acc hacc
        { s1 with world := w', wire := s1.wire ++ [.multi (((multiRequests requests).drop i).take s.batchSize)] }
      have hsb : sendBatch t (some fun m _ n => fetchPage t m n) requests false (multiRequests requests) s.batchSize
          acc i s1 = (.ok r1, s2) := by
        unfold sendBatch
        rw [bind_apply, send_apply, g1]
        simp only
        rw [bind_apply, checkBatch_apply, hcheck]
        simp only
        rw [bind_apply, lift_apply, hbr]
        exact f1
      rw [foldM_cons, bind_ok hsb]
      obtain ⟨r, s', k1, k2, k3, k4⟩ := ih r1 f2 s2
      refine ⟨r, s', k1, k2, fun k hk => k3 k (f3 k hk), ?_⟩
      intro j hj q hq
      rw [List.mem_cons] at hj
      rcases hj with rfl | hj
      · obtain ⟨item, hi, hme, _⟩ := hall _ _ _ _ _ _ g1 g3 g4 q hq
        obtain ⟨m', p', hm', _, rfl⟩ := mem_multiRequests.mp (List.mem_of_mem_drop (List.mem_of_mem_take hq))
        exact k3 _ (f4 item hi _ hme (hforce m' (List.mem_map.mpr ⟨(m', p'), hm', rfl⟩)).2)
      · exact k4 j hj q hq
  obtain ⟨acc, s1, b1, b2, _, b4⟩ := keyB (batchStarts requests.length s.batchSize) [] (by simp) s
  rw [bind_ok b1]
  have hin : ∀ k ∈ requests.keys, k ∈ acc.keys := by
    intro k hk
    obtain ⟨⟨k', p'⟩, hkp, rfl⟩ := List.mem_map.mp hk
    obtain ⟨i, hi, hq⟩ := mem_some_batch requests s.batchSize (by omega) (mkRequest k' p')
      (mem_multiRequests.mpr ⟨k', p', hkp, (hforce k' hk).1, rfl⟩)
    exact b4 i hi _ hq
  have hskip : ∀ (l : Dict String Json), (∀ x ∈ l, x.1 ∈ acc.keys) →
      foldM (queryMissing t false) acc l s1 = (.ok acc, s1) := by
    intro l
    induction l with
    | nil => intro _; rfl
    | cons x l ih =>
      intro hx
      have h1 : queryMissing t false acc x s1 = (.ok acc, s1) := by
        unfold queryMissing
        rw [if_pos (Dict.has_iff.mpr (hx x (List.mem_cons_self ..)))]
        rfl
      rw [foldM_cons, bind_ok h1]
      exact ih fun y hy => hx y (List.mem_cons_of_mem _ hy)
  have hmk : m ∈ acc.keys := hin m (List.mem_map.mpr ⟨(m, p), hm, rfl⟩)
  cases hg : Dict.get? acc m with
  | none => exact absurd hmk (Dict.get?_eq_none_iff.mp hg)
  | some e =>
    obtain ⟨v, rfl, hv⟩ := b2 m name L e hL hg
    exact ⟨acc, s1, v, hskip requests (fun x hx => hin x.1 (List.mem_map.mpr ⟨x, hx, rfl⟩)), hg, hv⟩

/-- C08, any device: fetching the rest of a list sends at most as many requests as elements are missing from the
announced sum; nothing collected is lost or reordered; and the list ends short of the announced sum only if the
device answered with a page without elements. -/
theorem C08_any_device (method name : String) (sum : Int) (items : List Json) (s : St σ) :
    (pages (fetchPage t method) name sum items s).2.wire.length ≤ s.wire.length + (sum - items.length).toNat ∧
    ∀ r s', pages (fetchPage t method) name sum items s = (.ok r, s') →
      items <+: r ∧ (sum ≤ r.length ∨
        ∃ s1 v, fetchPage t method r.length s1 = (.ok v, s') ∧ nextBatchList name v = .ok []) := by
  refine ⟨pages_bound _ ?_ _ _ _ _, fun r s' h => pages_stop _ _ _ _ _ _ _ h⟩
  intro n s
  unfold fetchPage executeSingle
  rw [bind_apply, send_apply]
  cases h : t.send (.single (mkRequest method (.obj [("start_index", .num n)]))) s.world with
  | mk r w =>
    cases r with
    | error e => simp
    | ok resp =>
      simp only
      rw [bind_apply, lift_apply]
      cases checkResponse true resp <;> simp

end

/-! ## Concrete devices: the hypotheses can be met, and witnesses of the failures -/

/-- A response object. -/
def respond (a : Answer) : Json :=
  .obj (("error_code", .num a.1) :: (match a.2 with | some v => [("result", v)] | none => []))

/-- A response object in a batch. -/
def respondItem (m : String) (a : Answer) : Json :=
  .obj (("method", .str m) :: ("error_code", .num a.1) :: (match a.2 with | some v => [("result", v)] | none => []))

/-- A device which stops a batch at the first failing request (as real devices do). -/
def stopAtError (ans : Request → Answer) : List Request → List Json
  | [] => []
  | r :: rs => respondItem r.method (ans r) :: if (ans r).1 = 0 then stopAtError ans rs else []

/-- The transport to such a device; its state counts the exchanges. -/
def sampleTransport (ans : Request → Answer) : Transport Nat where
  send w n := match w with
    | .single r => (.ok (respond (ans r)), n + 1)
    | .multi rs => (.ok (.obj [("error_code", .num 0), ("result", .obj [("responses", .arr (stopAtError ans rs))])]), n + 1)
    | .raw _ => (.error .connection, n + 1)
  reset n := (.ok (), n)

theorem respond_carries (a : Answer) : Carries (respond a) a := by
  obtain ⟨c, v⟩ := a
  refine ⟨⟨_, rfl⟩, rfl, ?_⟩
  cases v <;> rfl

theorem respondItem_carries (m : String) (a : Answer) :
    (respondItem m a).get? "method" = some (.str m) ∧ Carries (respondItem m a) a := by
  obtain ⟨c, v⟩ := a
  refine ⟨rfl, ⟨_, rfl⟩, rfl, ?_⟩
  cases v <;> rfl

theorem mem_stopAtError (ans : Request → Answer) (rs : List Request) (item : Json)
    (h : item ∈ stopAtError ans rs) : ∃ r ∈ rs, item = respondItem r.method (ans r) := by
  induction rs with
  | nil => simp [stopAtError] at h
  | cons r rs ih =>
    simp only [stopAtError, List.mem_cons] at h
    rcases h with rfl | h
    · exact ⟨r, List.mem_cons_self .., rfl⟩
    · split at h
      · obtain ⟨q, hq, rfl⟩ := ih h
        exact ⟨q, List.mem_cons_of_mem _ hq, rfl⟩
      · simp at h

theorem sampleTransport_honest (ans : Request → Answer) : Honest (sampleTransport ans) ans where
  single r w := ⟨_, _, rfl, respond_carries _⟩
  multi rs w := by
    refine ⟨_, stopAtError ans rs, _, rfl, rfl, ⟨_, rfl, rfl⟩, ?_⟩
    intro item hi
    obtain ⟨r, hr, rfl⟩ := mem_stopAtError ans rs item hi
    exact ⟨r, hr, respondItem_carries _ _⟩

/-- The answers of the sample device: the method "b" fails, every other one echoes its name; "set" has no result. -/
def sampleAns (r : Request) : Answer :=
  if r.method = "b" then (-1301, none) else if r.method = "set" then (0, none) else (0, some (.str r.method))

/-- Non-vacuity of C06: an honest unpaged device, seven requests with an error in the middle and a method that is never
batched, default batch size. -/
example : Honest (sampleTransport sampleAns) sampleAns ∧ Unpaged sampleAns ∧
    (executeQuery (sampleTransport sampleAns)
      (.dict [("a", .null), ("b", .null), ("c", .null), ("scanApList", .null), ("d", .null), ("e", .null), ("f", .null)])
      ⟨5, 0, []⟩).1 =
      .ok [("a", .value (.str "a")), ("b", .error (-1301)), ("f", .value (.str "f")), ("c", .value (.str "c")),
           ("scanApList", .value (.str "scanApList")), ("d", .value (.str "d")), ("e", .value (.str "e"))] := by
  refine ⟨sampleTransport_honest _, ?_, by decide +kernel⟩
  intro r v h
  unfold sampleAns at h
  split at h
  · cases h
  · split at h
    · cases h
    · cases h; rfl

/-- The full C06 fails with batching disabled: a successful answer without a result (any set command) is a
`KeyError`, not even a library exception. -/
theorem C06_batch_size_one_key_error :
    ∃ (t : Transport Nat) (ans : Request → Answer) (requests : Dict String Json) (s : St Nat),
      Honest t ans ∧ Unpaged ans ∧ s.batchSize = 1 ∧ (executeQuery t (.dict requests) s).1 = .error (.other "KeyError") := by
  refine ⟨sampleTransport sampleAns, sampleAns, [("set", .num 1), ("a", .null)], ⟨1, 0, []⟩,
    sampleTransport_honest _, ?_, rfl, by decide +kernel⟩
  intro r v h
  unfold sampleAns at h
  split at h
  · cases h
  · split at h
    · cases h
    · cases h; rfl

/-- A batch can be empty on the wire: the number of batches is computed from all requests, although the methods that
are never batched are left out of them. -/
theorem C06_empty_batch_sent :
    ∃ (t : Transport Nat) (requests : Dict String Json) (s : St Nat), s.batchSize = 5 ∧
      [] ∈ batches (executeQuery t (.dict requests) s).2.wire := by
  refine ⟨sampleTransport sampleAns, [("a", .null), ("c", .null), ("d", .null), ("e", .null), ("f", .null), ("scanApList", .null)],
    ⟨5, 0, []⟩, rfl, by decide +kernel⟩

/-- The list handed out by the sample paging device. -/
def sampleList : List Json := [.num 1, .num 2, .num 3, .num 4, .num 5]

/-- The answers of the sample paging device: "list" hands out the list, two elements at a time; "b" fails. -/
def pagingAns (r : Request) : Answer :=
  if r.method = "b" then (-1301, none)
  else if r.method = "list" then
    (0, some (.obj [("start_index", .num (startOf r.params)), ("sum", .num 5),
      ("items", .arr ((sampleList.drop (startOf r.params).toNat).take 2))]))
  else (0, some (.str r.method))

theorem pagingAns_page (p : Option Json) : ∃ v, pagingAns ⟨"list", p⟩ = (0, some v) ∧
    PageOf "items" sampleList (startOf p).toNat v := by
  refine ⟨_, rfl, [("start_index", .num (startOf p)), ("sum", .num 5)], [], 2, by decide, rfl, ?_, ?_, ?_, rfl⟩
  · show List.Nodup ["start_index", "sum", "items"]
    decide
  · intro k xs
    simp
  · show some _ ≠ none
    simp

/-- Non-vacuity of C08: the sample device hands out its list. -/
theorem pagingServes : Serves (sampleTransport pagingAns) "list" "items" sampleList := by
  intro p w _
  obtain ⟨v, h1, h2⟩ := pagingAns_page p
  refine ⟨respond (pagingAns ⟨"list", p⟩), w + 1, v, rfl, ?_, h2⟩
  rw [h1]
  exact respond_carries _

/-- Non-vacuity of C08: the whole list comes back. -/
example : (executeQuery (sampleTransport pagingAns) (.dict [("list", .null)]) ⟨5, 0, []⟩).1 =
    .ok [("list", .value (.obj [("start_index", .num 0), ("sum", .num 5), ("items", .arr sampleList)]))] := by
  decide +kernel

theorem stopAtError_all (ans : Request → Answer) (h : ∀ r, (ans r).1 = 0) (rs : List Request) :
    ∀ r ∈ rs, respondItem r.method (ans r) ∈ stopAtError ans rs := by
  induction rs with
  | nil => simp
  | cons q rs ih =>
    intro r hr
    simp only [stopAtError, h q, if_true, List.mem_cons]
    rcases List.mem_cons.mp hr with rfl | hr
    · exact Or.inl rfl
    · exact Or.inr (ih r hr)

/-- The paging device without the failing method. -/
def goodPagingAns (r : Request) : Answer := if r.method = "b" then (0, some (.num 7)) else pagingAns r

/-- Non-vacuity of C08 in batches: the hypotheses are met by a device with one paged list. -/
example : Honest (sampleTransport goodPagingAns) goodPagingAns ∧ AnswersAll (sampleTransport goodPagingAns) goodPagingAns ∧
    Serves (sampleTransport goodPagingAns) "list" "items" sampleList ∧
    (∃ v, goodPagingAns (requestFor "list" .null) = (0, some v) ∧ PageOf "items" sampleList 0 v) ∧
    (executeQuery (sampleTransport goodPagingAns) (.dict [("b", .null), ("list", .null), ("c", .null)]) ⟨2, 0, []⟩).1 =
      .ok [("b", .value (.num 7)), ("list", .value (.obj [("start_index", .num 0), ("sum", .num 5),
        ("items", .arr sampleList)])), ("c", .value (.str "c"))] := by
  refine ⟨sampleTransport_honest _, ?_, ?_, pagingAns_page none, by decide +kernel⟩
  · intro rs w resp res items w' h1 h2 h3 r hr
    simp only [sampleTransport, Prod.mk.injEq, Except.ok.injEq] at h1
    obtain ⟨rfl, _⟩ := h1
    simp only [Json.get?, Dict.get?, String.reduceEq, if_true, if_false, Option.some.injEq] at h2
    subst h2
    simp only [Json.get?, Dict.get?, if_true, Option.some.injEq, Json.arr.injEq] at h3
    subst h3
    refine ⟨_, stopAtError_all goodPagingAns ?_ rs r hr, respondItem_carries _ _⟩
    intro r
    unfold goodPagingAns pagingAns
    split
    · rfl
    · split <;> rfl
  · intro p w _
    obtain ⟨v, h1, h2⟩ := pagingAns_page p
    refine ⟨respond (pagingAns ⟨"list", p⟩), w + 1, v, rfl, ?_, h2⟩
    rw [h1]
    exact respond_carries _

/-- The full C08 fails in batches: when the device stops a batch at a failing method, the methods behind it are queried
again one by one, and of a paged list only the first page is returned. -/
theorem C08_requeried_list_truncated :
    ∃ (t : Transport Nat) (ans : Request → Answer) (s s' : St Nat) (r : Dict String Entry) (v : Json),
      Honest t ans ∧ Serves t "list" "items" sampleList ∧ s.batchSize = 5 ∧
      executeQuery t (.dict [("b", .null), ("list", .null)]) s = (.ok r, s') ∧
      Dict.get? r "list" = some (.value v) ∧ v.get? "items" = some (.arr (sampleList.take 2)) := by
  refine ⟨sampleTransport pagingAns, pagingAns, ⟨5, 0, []⟩,
    (executeQuery (sampleTransport pagingAns) (.dict [("b", .null), ("list", .null)]) ⟨5, 0, []⟩).2,
    [("b", .error (-1301)), ("list", .value (.obj [("start_index", .num 0), ("sum", .num 5),
      ("items", .arr (sampleList.take 2))]))], .obj [("start_index", .num 0), ("sum", .num 5),
      ("items", .arr (sampleList.take 2))], sampleTransport_honest _, pagingServes, rfl, ?_, by decide +kernel, by decide +kernel⟩
  exact Prod.ext (by decide +kernel) rfl

/-- A device that cannot read batches. -/
def noBatchTransport : Transport Nat where
  send w n := match w with
    | .single r => (.ok (respond (sampleAns r)), n + 1)
    | .multi _ => (.ok (.obj [("error_code", .num (-1003))]), n + 1)
    | .raw _ => (.error .connection, n + 1)
  reset n := (.ok (), n)

/-- Non-vacuity of C07: such a device exists, the query falls back, and the result is complete. -/
example : (∀ r w, ∃ resp w', noBatchTransport.send (.single r) w = (.ok resp, w') ∧ Carries resp (sampleAns r)) ∧
    (∀ rs w, ∃ resp w' c, noBatchTransport.send (.multi rs) w = (.ok resp, w') ∧
      resp.get? "error_code" = some (.num c) ∧ CannotBatch c) ∧
    (query noBatchTransport (.dict [("a", .null), ("b", .null)]) 3 ⟨5, 0, []⟩).1 =
      .ok [("a", .value (.str "a")), ("b", .error (-1301))] ∧
    (query noBatchTransport (.dict [("a", .null), ("b", .null)]) 3 ⟨5, 0, []⟩).2.batchSize = 1 := by
  refine ⟨fun r w => ⟨_, _, rfl, respond_carries _⟩, fun rs w => ⟨_, _, -1003, rfl, rfl, Or.inl rfl⟩, ?_, ?_⟩ <;>
    decide +kernel

end Kasa.Smart
