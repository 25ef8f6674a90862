import Verif.Spec.ChildProtocol
import Verif.Lemmas.SmartProtocol
/-!
# C10: child queries reach the right child and come back unwrapped
-/

namespace Kasa.Child
open PyM Smart SmartSpec ChildSpec

section
variable {S : Type} (parent : Parent S)

theorem readRequest_item (m : String) (p : Json) : readRequest (requestItem m p) = some (requestFor m p) := by
  unfold requestItem requestFor
  by_cases h : p.truthy = true
  · simp [h, readRequest, Json.get?, Dict.get?]
  · simp [h, readRequest, Json.get?, Dict.get?]

theorem envelope_carried (id : String) (q : Query) :
    ∃ body, envelope id (methodAndParams q) = [("control_child", body)] ∧ Carried id q body := by
  refine ⟨_, rfl, rfl, _, rfl, ?_⟩
  cases q with
  | name m => exact ⟨rfl, rfl⟩
  | dict requests =>
    match requests with
    | [(m, p)] => exact ⟨rfl, rfl⟩
    | [] => exact ⟨rfl, _, _, rfl, rfl, rfl⟩
    | x :: y :: rest =>
      refine ⟨rfl, _, _, rfl, rfl, ?_⟩
      rw [List.map_map]
      apply List.map_congr_left
      intro kv _
      exact readRequest_item kv.1 kv.2

theorem query_apply (id : String) (q : Query) (s : S) : query parent id q s =
    match parent (envelope id (methodAndParams q)) s with
    | (.ok response, s') => (unwrap (methodAndParams q).1 response, s')
    | (.error e, s') => (.error e, s') := by
  unfold query
  rw [bind_apply]
  cases parent (envelope id (methodAndParams q)) s with
  | mk r s' => cases r with
    | ok r => simp only; rw [lift_apply]
    | error e => rfl

theorem camQuery_apply (id : String) (requests : Dict String Json) (s : S) : camQuery parent id (.dict requests) s =
    match parent (camEnvelope id requests) s with
    | (.ok response, s') => (camUnwrap requests response, s')
    | (.error e, s') => (.error e, s') := by
  unfold camQuery
  simp only
  rw [bind_apply]
  cases parent (camEnvelope id requests) s with
  | mk r s' => cases r with
    | ok r => simp only; rw [lift_apply]
    | error e => rfl

/-- C10, any parent: a child query asks the parent exactly once, with an envelope addressed to this child that carries
every method and its params unchanged and in order; if the parent raises, so does the child query. -/
theorem C10_envelope (id : String) (q : Query) (s : S) (log : List (Dict String Json)) :
    (∃ body, (query (logged parent) id q (s, log)).2.2 = log ++ [[("control_child", body)]] ∧ Carried id q body) ∧
    (∀ e s', parent (envelope id (methodAndParams q)) s = (.error e, s') → query parent id q s = (.error e, s')) := by
  constructor
  · obtain ⟨body, h1, h2⟩ := envelope_carried id q
    refine ⟨body, ?_, h2⟩
    rw [query_apply]
    simp only [logged, h1]
    cases h : parent [("control_child", body)] s with
    | mk r s' => cases r <;> rfl
  · intro e s' h
    rw [query_apply, h]

theorem multiEntries_spec {ans : Request → Answer} (requests : Dict String Json)
    (items : List Json) (hi : AnswersSome ans requests items) (acc : Dict String Entry)
    (hacc : Right (fun m p => entryFor (ans (mkRequest m p))) requests acc) :
    ∃ r, multiEntries items acc = .ok r ∧ Right (fun m p => entryFor (ans (mkRequest m p))) requests r ∧
      (∀ m, m ∈ r.keys ↔ m ∈ acc.keys ∨ ∃ item ∈ items, item.get? "method" = some (.str m)) := by
  induction items generalizing acc with
  | nil => exact ⟨acc, rfl, hacc, by simp⟩
  | cons item items ih =>
    obtain ⟨m, p, hm, hmeth, hc⟩ := hi item (List.mem_cons_self ..)
    have hstep : multiEntry acc item = .ok (acc.set m (entryFor (ans (mkRequest m p)))) := by
      have h1 := checkResponse_carries hc
      have h2 := resultGet_carries hc
      obtain ⟨kvs, rfl⟩ := hc.1
      have hmeth' : Dict.get? kvs "method" = some (.str m) := hmeth
      simp only [multiEntry, hmeth']
      rw [h1]
      show Except.ok _ = _
      rw [h2]
      rfl
    obtain ⟨r, e1, e2, e3⟩ := ih (fun y hy => hi y (List.mem_cons_of_mem _ hy)) _
      (hacc.set (E := fun m p => entryFor (ans (mkRequest m p))) hm)
    refine ⟨r, ?_, e2, ?_⟩
    · show (multiEntry acc item >>= fun acc' => multiEntries items acc') = _
      rw [hstep]; exact e1
    · intro k
      rw [e3 k, Dict.mem_keys_set]
      constructor
      · rintro ((h | h) | ⟨it, h1, h2⟩)
        · subst h; exact Or.inr ⟨item, List.mem_cons_self .., hmeth⟩
        · exact Or.inl h
        · exact Or.inr ⟨it, List.mem_cons_of_mem _ h1, h2⟩
      · rintro (h | ⟨it, h1, h2⟩)
        · exact Or.inl (Or.inr h)
        · rcases List.mem_cons.mp h1 with rfl | h1
          · rw [hmeth] at h2; cases h2; exact Or.inl (Or.inl rfl)
          · exact Or.inr ⟨it, h1, h2⟩

theorem unwrap_inside {response : Dict String Entry} {rd : Json} (h : Inside response rd) (hrd : rd.truthy = true)
    (m : String) : unwrap m response = unwrapData m rd := by
  obtain ⟨v, h1, h2⟩ := h
  obtain ⟨kvs, rfl⟩ : ∃ kvs, v = .obj kvs := by
    cases v <;> simp [Json.get?] at h2 ⊢
  have h2' : Dict.get? kvs "responseData" = some rd := h2
  have ht : (Json.obj kvs).truthy = true := by
    cases kvs with
    | nil => simp at h2'
    | cons x xs => rfl
  unfold unwrap
  simp only [h1, ht, if_true, getAttr, h2', optTruthy, hrd, Option.getD_some]

/-- C10, one method: if the child's answer arrives inside the parent's answer, the caller gets the child's result filed
under the method, or the exception for the child's error code.  (The child's result must not itself be a dictionary
with a non-empty field called "responses".) -/
theorem C10_single (id : String) (m : String) (p : Json) (s s' : S) (response : Dict String Entry) (rd : Json)
    (a : Answer) (hparent : parent (envelope id (m, p)) s = (.ok response, s')) (hin : Inside response rd)
    (hc : Carries rd a) (hshape : ∀ v, a.2 = some v → v.truthy = true → (∃ kvs, v = .obj kvs) ∧ v.get? "responses" = none) :
    query parent id (.dict [(m, p)]) s =
      (match CodesSpec.expected a.1 with
       | .ok () => .ok [(m, .value (a.2.getD .null))]
       | .error e => .error e, s') := by
  have hrd : rd.truthy = true := by
    obtain ⟨⟨kvs, rfl⟩, h1, _⟩ := hc
    cases kvs with
    | nil => simp [Json.get?] at h1
    | cons x xs => rfl
  have hmp : methodAndParams (.dict [(m, p)]) = (m, p) := rfl
  rw [query_apply, hmp, hparent]
  simp only
  rw [unwrap_inside hin hrd]
  have hchk := checkResponse_carries_raise hc
  obtain ⟨kvs, hk⟩ := hc.1
  have hres : getAttr rd "result" = .ok a.2 := by
    rw [hk]; have := hc.2.2; rw [hk] at this; exact congrArg Except.ok this
  have hresp : childResponses a.2 = .ok none := by
    unfold childResponses
    cases h2 : a.2 with
    | none => rfl
    | some v =>
      by_cases hv : v.truthy = true
      · obtain ⟨⟨kvs', rfl⟩, h3⟩ := hshape v h2 hv
        have h3' : Dict.get? kvs' "responses" = none := h3
        simp only [optTruthy, hv, if_true, Option.getD_some, getAttr, h3']
      · simp [optTruthy, hv]
  unfold unwrapData
  simp only [hres, hresp, hchk]
  cases CodesSpec.expected a.1 <;> rfl

/-- C10, no answer of the child: a result of the parent without an answer of the child in it is handed to the caller as it is, under the
method's name. -/
theorem C10_no_data (id : String) (m : String) (p : Json) (s s' : S) (kvs : Dict String Json) (response : Dict String Entry)
    (hparent : parent (envelope id (m, p)) s = (.ok response, s')) (hr : Dict.get? response "control_child" = some (.value (.obj kvs)))
    (hn : ∀ v, Dict.get? kvs "responseData" = some v → v.truthy = false) :
    query parent id (.dict [(m, p)]) s = (.ok [(m, .value (.obj kvs))], s') := by
  have hmp : methodAndParams (.dict [(m, p)]) = (m, p) := rfl
  have ho : optTruthy (Dict.get? kvs "responseData") = false := by
    cases h : Dict.get? kvs "responseData" with
    | none => rfl
    | some v => exact hn v h
  rw [query_apply, hmp, hparent]
  simp only [unwrap, hr, getAttr, ho, Bool.false_eq_true, if_false, ite_self]

/-- C10, several methods: if the child answers every request, in any order, the caller gets for every method the
child's own result or error code, and nothing else.  Missing: methods the child does not answer are dropped, see
`C10_unanswered_method_dropped`. -/
theorem C10_multi_partial (id : String) (requests : Dict String Json) (hlen : 2 ≤ requests.length)
    (hwf : Dict.WF requests) (s s' : S)
    (response : Dict String Entry) (rd res : Json) (items : List Json) (ans : Request → Answer)
    (hparent : parent (envelope id (methodAndParams (.dict requests))) s = (.ok response, s'))
    (hin : Inside response rd) (hrd : rd.get? "result" = some res) (hres : res.get? "responses" = some (.arr items))
    (hsome : AnswersSome ans requests items) (hevery : AnswersEvery requests items) :
    ∃ r, query parent id (.dict requests) s = (.ok r, s') ∧
      (∀ m, m ∈ r.keys ↔ m ∈ requests.keys) ∧
      ∀ m p, (m, p) ∈ requests → Dict.get? r m = some (entryFor (ans (requestFor m p))) := by
  obtain ⟨kvs, rfl⟩ : ∃ kvs, rd = .obj kvs := by
    cases rd <;> simp [Json.get?] at hrd ⊢
  obtain ⟨kvs', rfl⟩ : ∃ kvs', res = .obj kvs' := by
    cases res <;> simp [Json.get?] at hres ⊢
  have hrd' : Dict.get? kvs "result" = some (.obj kvs') := hrd
  have hres' : Dict.get? kvs' "responses" = some (.arr items) := hres
  have ht : (Json.obj kvs).truthy = true := by
    cases kvs with
    | nil => simp at hrd'
    | cons x xs => rfl
  have ht' : (Json.obj kvs').truthy = true := by
    cases kvs' with
    | nil => simp at hres'
    | cons x xs => rfl
  have hne : items ≠ [] := by
    rintro rfl
    match requests, hlen with
    | x :: _, _ =>
      obtain ⟨_, h, _⟩ := hevery x.1 (by simp)
      simp at h
  have hti : (Json.arr items).truthy = true := by
    cases items with
    | nil => exact absurd rfl hne
    | cons x xs => rfl
  obtain ⟨r, e1, e2, e3⟩ := multiEntries_spec requests items hsome [] (by intro m e h; simp at h)
  refine ⟨r, ?_, ?_, ?_⟩
  · rw [query_apply, hparent]
    simp only
    rw [unwrap_inside hin ht]
    simp only [unwrapData, getAttr, hrd', childResponses, optTruthy, ht', if_true, Option.getD_some, hres', hti, e1]
  · intro m
    rw [e3 m]
    constructor
    · rintro (h | ⟨item, h1, h2⟩)
      · simp at h
      · obtain ⟨m', p', h3, h4, _⟩ := hsome item h1
        rw [h4] at h2; cases h2
        exact List.mem_map.mpr ⟨(m, p'), h3, rfl⟩
    · intro h
      exact Or.inr (hevery m h)
  · intro m p hm
    have hk : m ∈ r.keys := (e3 m).mpr (Or.inr (hevery m (List.mem_map.mpr ⟨(m, p), hm, rfl⟩)))
    cases hg : Dict.get? r m with
    | none => exact absurd hk (Dict.get?_eq_none_iff.mp hg)
    | some e =>
      obtain ⟨p', hp', rfl⟩ := e2 m e hg
      have h1 := Dict.get?_of_mem hwf hm
      have h2 := Dict.get?_of_mem hwf hp'
      rw [h1] at h2
      cases h2
      rfl

/-- C10, camera children, any parent: one request to the parent, which carries each method and its params, in order,
addressed to this child; if the parent raises, so does the child query. -/
theorem C10_cam_envelope (id : String) (requests : Dict String Json) (s : S) (log : List (Dict String Json)) :
    (∃ body items, (camQuery (logged parent) id (.dict requests) (s, log)).2.2 = log ++ [[("multipleRequest", body)]] ∧
      body.get? "requests" = some (.arr items) ∧ items.length = requests.length ∧
      ∀ (i : Nat) (m : String) (p item : Json), requests[i]? = some (m, p) → items[i]? = some item →
        CamCarried id m p item) ∧
    (∀ e s', parent (camEnvelope id requests) s = (.error e, s') →
      camQuery parent id (.dict requests) s = (.error e, s')) := by
  constructor
  · refine ⟨.obj [("requests", .arr (requests.map fun kv => camItem id kv.1 kv.2))],
      requests.map fun kv => camItem id kv.1 kv.2, ?_, rfl, by simp, ?_⟩
    · rw [camQuery_apply]
      simp only [logged]
      cases h : parent (camEnvelope id requests) s with
      | mk r s' => cases r <;> rfl
    · intro i m p item h1 h2
      rw [List.getElem?_map, h1] at h2
      simp only [Option.map_some, Option.some.injEq] at h2
      subst h2
      exact ⟨rfl, _, _, _, rfl, rfl, rfl, rfl, rfl, rfl⟩
  · intro e s' h
    rw [camQuery_apply, h]

theorem camEntries_spec {ans : Request → Answer} (requests : Dict String Json) (items : List Json)
    (hwf : Dict.WF requests) (h : CamAnswers ans requests items) (acc : Dict String Entry)
    (hdis : ∀ m ∈ requests.keys, m ∉ acc.keys) :
    camEntries false items requests.keys acc =
      .ok (acc ++ (requests.take items.length).map fun kv => (kv.1, entryFor (ans ⟨kv.1, some kv.2⟩))) := by
  induction items generalizing requests acc with
  | nil => simp [camEntries]
  | cons item items ih =>
    match requests, h with
    | (m, p) :: rest, h =>
      obtain ⟨⟨res, rd, h1, h2, h3⟩, h4⟩ := h
      obtain ⟨kvs, rfl⟩ : ∃ kvs, item = .obj kvs := by
        cases item <;> simp [Json.get?] at h1 ⊢
      obtain ⟨kvs', rfl⟩ : ∃ kvs', res = .obj kvs' := by
        cases res <;> simp [Json.get?] at h2 ⊢
      have h1' : Dict.get? kvs "result" = some (.obj kvs') := h1
      have h2' : Dict.get? kvs' "response_data" = some rd := h2
      have hrd : responseData (.obj kvs) = .ok rd := by
        simp only [responseData, h1', h2']
      rw [Dict.WF_cons] at hwf
      simp only [camEntries, Dict.keys_cons]
      rw [hrd]
      show (do
        let replaced ← checkResponse false rd
        camEntries false items (Dict.keys rest) (Dict.set acc m (resultGet rd replaced))) = _
      rw [checkResponse_carries h3]
      show camEntries false items (Dict.keys rest) (Dict.set acc m (resultGet rd _)) = _
      rw [resultGet_carries h3, Dict.set_append_of_not_mem _ (hdis m (by simp))]
      rw [ih rest hwf.2 h4 _ ?_]
      · simp [List.append_assoc]
      · intro k hk
        rw [Dict.keys_append]
        simp only [List.mem_append, not_or]
        refine ⟨hdis k (by simp [hk]), ?_⟩
        simp only [Dict.keys_cons, Dict.keys_nil, List.mem_cons, List.not_mem_nil, or_false]
        rintro rfl
        exact hwf.1 hk

/-- C10, camera children, two or more methods: if the parent's answers are in the order of the requests, the caller gets
for each answered method the child's result or error code.  Missing: unanswered methods are dropped
(`C10_cam_unanswered_method_dropped`) and answers in another order are misattributed. -/
theorem C10_cam_partial (id : String) (requests : Dict String Json) (hlen : 2 ≤ requests.length)
    (hwf : Dict.WF requests) (s s' : S) (response : Dict String Entry) (v : Json) (items : List Json)
    (ans : Request → Answer) (hparent : parent (camEnvelope id requests) s = (.ok response, s'))
    (hv : Dict.get? response "multipleRequest" = some (.value v)) (hitems : v.get? "responses" = some (.arr items))
    (h : CamAnswers ans requests items) :
    camQuery parent id (.dict requests) s =
      (.ok ((requests.take items.length).map fun kv => (kv.1, entryFor (ans ⟨kv.1, some kv.2⟩))), s') := by
  obtain ⟨kvs, rfl⟩ : ∃ kvs, v = .obj kvs := by
    cases v <;> simp [Json.get?] at hitems ⊢
  have hitems' : Dict.get? kvs "responses" = some (.arr items) := hitems
  have hl : (requests.length == 1) = false := by simp; omega
  rw [camQuery_apply, hparent]
  simp only
  unfold camUnwrap
  simp only [hv, hitems', hl]
  rw [camEntries_spec requests items hwf h [] (by simp)]
  simp

end

/-! ## Witnesses of the failures -/

/-- A parent that always gives the same answer. -/
def fixedParent (response : Dict String Entry) : Parent Unit := fun _ s => (.ok response, s)

/-- The full C10 fails: a method that the child does not answer (children, too, stop a batch at the first error) is
silently missing from the result: it is not asked for again, as a query to the parent itself would do. -/
theorem C10_unanswered_method_dropped :
    ∃ (response : Dict String Entry) (requests : Dict String Json) (r : Dict String Entry) (m : String),
      (query (fixedParent response) "child" (.dict requests) ()).1 = .ok r ∧ m ∈ requests.keys ∧ m ∉ r.keys := by
  refine ⟨[("control_child", .value (.obj [("responseData", .obj [("error_code", .num 0),
      ("result", .obj [("responses", .arr [.obj [("method", .str "a"), ("error_code", .num (-1301))]])])])]))],
    [("a", .null), ("b", .null)], [("a", .error (-1301))], "b", ?_, ?_, ?_⟩ <;> decide +kernel

/-- The full C10 fails: an error code of the child's batch as a whole is ignored when the batch has responses. -/
theorem C10_child_error_ignored :
    ∃ (response : Dict String Entry) (rd : Json) (r : Dict String Entry),
      Inside response rd ∧ rd.get? "error_code" = some (.num (-1301)) ∧
      (query (fixedParent response) "child" (.dict [("a", .null), ("b", .null)]) ()).1 = .ok r := by
  refine ⟨[("control_child", .value (.obj [("responseData", .obj [("error_code", .num (-1301)),
      ("result", .obj [("responses", .arr [.obj [("method", .str "a"), ("error_code", .num 0)]])])])]))], _,
    [("a", .value .null)], ⟨_, rfl, rfl⟩, ?_, ?_⟩ <;> decide +kernel

/-- The full C10 fails for camera children: an unanswered method is silently missing. -/
theorem C10_cam_unanswered_method_dropped :
    ∃ (response : Dict String Entry) (requests : Dict String Json) (r : Dict String Entry) (m : String),
      (camQuery (fixedParent response) "child" (.dict requests) ()).1 = .ok r ∧ m ∈ requests.keys ∧ m ∉ r.keys := by
  refine ⟨[("multipleRequest", .value (.obj [("responses", .arr [.obj [("error_code", .num 0), ("result",
      .obj [("response_data", .obj [("error_code", .num (-1301))])])]])]))],
    [("a", .null), ("b", .null)], [("a", .error (-1301))], "b", ?_, ?_, ?_⟩ <;> decide +kernel

/-- The full C10 fails for camera children: an error of the envelope itself surfaces as a `KeyError`. -/
theorem C10_cam_envelope_error_escapes :
    ∃ (response : Dict String Entry) (requests : Dict String Json),
      (camQuery (fixedParent response) "child" (.dict requests) ()).1 = .error (.other "KeyError") := by
  refine ⟨[("multipleRequest", .value (.obj [("responses", .arr [.obj [("error_code", .num (-40106))]])]))],
    [("a", .null)], ?_⟩
  decide +kernel

/-- A case of `C10_no_data`. -/
example : (query (fixedParent [("control_child", .value (.obj [("done", .bool true)]))]) "child" (.dict [("set", .num 1)]) ()).1 =
    .ok [("set", .value (.obj [("done", .bool true)]))] := by decide +kernel

/-- Non-vacuity of C10: two methods, answered in reverse order, one with an error. -/
example : (query (fixedParent [("control_child", .value (.obj [("responseData", .obj [("error_code", .num 0),
      ("result", .obj [("responses", .arr [.obj [("method", .str "b"), ("error_code", .num 0), ("result", .num 3)],
        .obj [("method", .str "a"), ("error_code", .num 5)]])])])]))]) "child"
      (.dict [("a", .null), ("b", .null)]) ()).1 = .ok [("b", .value (.num 3)), ("a", .error (-100000))] := by
  decide +kernel
/-- Non-vacuity of C10: a single method fails with an authentication error. -/
example : (query (fixedParent [("control_child", .value (.obj [("responseData", .obj [("error_code", .num (-1501))])]))])
      "child" (.dict [("a", .null)]) ()).1 = .error (.auth (some (-1501))) := by
  decide +kernel

end Kasa.Child
