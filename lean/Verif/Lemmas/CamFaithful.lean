import Verif.Lemmas.Faithful
import Verif.Spec.CamEndToEnd
/-!
# Camera queries over a transport that carries requests out at most once
-/

namespace Kasa.SmartCam
open PyM Smart

section
variable {σ : Type} (t : Transport σ) {R : St σ → St σ → Prop} {P : Json → Prop}

/-- What a transport has to keep so that camera queries keep it. -/
structure Keeps (t : Transport σ) (P : Json → Prop) (R : St σ → St σ → Prop) : Prop extends Smart.Keeps t P R where
  raw : ∀ j, P j → Rel R (Smart.send t (.raw j))
  camPage : ∀ (k : String) (n : Nat), P (.obj [(k, .obj [("start_index", .num n)])])
  named : ∀ m, P (makeSingleRequest m).request
  given : ∀ m p r, P p → getSingleRequest m p = .ok r → P r.request

variable (k : Keeps t P R)
include k

theorem fetchPage_keeps (m : String) (p : Json) (n : Nat) : Rel R (fetchPage t m p n) := by
  unfold fetchPage
  split
  · next module _ _ =>
    refine Rel.bind k.trans (executeMultiple_keeps t k.toKeeps (pager := none) (fun f hf => by cases hf) _ ?_) fun r => ?_
    · intro kv hkv
      rw [List.mem_singleton] at hkv
      subst hkv
      exact k.camPage _ _
    · split
      · exact Rel.pure k.refl _
      · exact Rel.raise k.refl _
      · exact Rel.raise k.refl _
  · exact Rel.raise k.refl _
  · exact Rel.raise k.refl _

theorem pager_keeps : PagerKeeps R (some (fetchPage t)) := by
  rintro f hf m p n
  cases hf
  exact fetchPage_keeps t k m p n

theorem executeRaw_keeps (r : SingleRequest) (hr : P r.request) : Rel R (executeRaw t r) :=
  Rel.bind k.trans (k.raw _ hr) fun _ => Rel.lift k.refl _

theorem executeQuery_keeps (q : Query) (hq : QueryAll P q) : Rel R (executeQuery t q) := by
  unfold executeQuery
  split
  · exact executeRaw_keeps t k _ (k.named _)
  · exact Rel.raise k.refl _
  · next m p =>
    split
    · intro s
      cases hg : getSingleRequest m p with
      | error e => exact k.refl s
      | ok r => exact executeRaw_keeps t k r (k.given m p r (hq (m, p) (.head _)) hg) s
    · exact executeMultiple_keeps t k.toKeeps (pager_keeps t k) _ hq
  · exact executeMultiple_keeps t k.toKeeps (pager_keeps t k) _ hq

/-- Whatever the transport keeps, a camera query keeps. -/
theorem query_keeps (q : Query) (hq : QueryAll P q) (rc : Int) : Rel R (query t q rc) :=
  retried_rel t _ rc k.refl k.trans (executeQuery_keeps t k q hq) k.reset

end

section
variable {σ : Type} {t t' : Transport σ} {I : σ → Prop} {P : Json → Prop}

theorem pagerBelow (hpage : ∀ (k : String) (n : Nat), P (.obj [(k, .obj [("start_index", .num n)])]))
    (hsend : ∀ w, WireAll P w → Below I (Smart.send t w) (Smart.send t' w)) : PagerBelow I (some (fetchPage t)) (some (fetchPage t')) := by
  intro m p n
  unfold fetchPage
  split
  · refine Below.bind (executeMultiple_below hsend (pager := none) (pager' := none) trivial _ ?_) fun r => ?_
    · intro kv hkv
      rw [List.mem_singleton] at hkv
      subst hkv
      exact hpage _ _
    · split
      · exact Below.pure _
      · exact Below.raise _
      · exact Below.raise _
  · exact Below.raise _
  · exact Below.raise _

theorem executeQuery_many (requests : Dict String Json) (h : 2 ≤ requests.length) :
    executeQuery t (.dict requests) = executeMultiple t (some (fetchPage t)) requests := by
  match requests, h with
  | _ :: _ :: _, _ => rfl

end

theorem proper_named (m : String) : JsonText.Proper (makeSingleRequest m).request := by
  have key : ∀ a k : String, JsonText.Proper (.obj (Dict.set [("method", .str a)] k (.obj []))) := by
    intro a k
    by_cases hk : k = "method"
    · subst hk
      simp [Dict.set, JsonText.Proper, JsonText.ProperKvs, Dict.WF, Dict.keys]
    · simp [Dict.set, JsonText.Proper, JsonText.ProperKvs, Dict.WF, Dict.keys, hk, Ne.symm hk]
  unfold makeSingleRequest
  simp only
  split <;> exact key _ _

theorem proper_given (m : String) (p : Json) (r : SingleRequest) (hp : JsonText.Proper p) (h : getSingleRequest m p = .ok r) :
    JsonText.Proper r.request := by
  unfold getSingleRequest at h
  split at h
  · cases h
    simp [JsonText.Proper, JsonText.ProperKvs, Dict.WF, Dict.keys, hp]
  · split at h
    · next k v _ =>
      cases h
      have hv : JsonText.Proper v := by
        simp only [JsonText.Proper, JsonText.ProperKvs] at hp
        exact hp.2.1
      by_cases hk : k = "method"
      · subst hk
        simp [Dict.set, JsonText.Proper, JsonText.ProperKvs, Dict.WF, Dict.keys, hv]
      · simp [Dict.set, JsonText.Proper, JsonText.ProperKvs, Dict.WF, Dict.keys, hk, Ne.symm hk, hv]
    · cases h
    · cases h

theorem proper_camPage (k : String) (n : Nat) : JsonText.Proper (.obj [(k, .obj [("start_index", .num n)])]) := by
  simp [JsonText.Proper, JsonText.ProperKvs, Dict.WF, Dict.keys]

end Kasa.SmartCam

namespace Kasa.CamEndToEnd
open PyM EndToEnd

section
variable {σ α : Type} {t : Smart.Transport σ} {p : Program α} {uuid : String} {Good : σ → Prop} {state : σ → α}

theorem camKeeps (F : Faithful t p uuid Good state) : SmartCam.Keeps t JsonText.Proper (Explains p uuid Good state) := by
  refine ⟨F.keeps, ?_, SmartCam.proper_camPage, SmartCam.proper_named, SmartCam.proper_given⟩
  intro j hj s hg
  obtain ⟨j, res, s', hmsg, h1, h2, h3⟩ := F.step (.raw j) hj s.world hg
  rw [Smart.send_apply, h1]
  refine ⟨h2, [_], [(j, res)], rfl, .cons hmsg .nil, ?_⟩
  show Once p (state s.world) _ (state s')
  rcases h3 with ⟨e, rfl, he⟩ | ⟨e, rfl, he⟩ | ⟨rfl, he⟩
  · rw [he]; exact .failed (.nil _)
  · rw [he]; exact .unanswered (.nil _)
  · rw [he]; exact .answered (.nil _)

theorem queries_explains (F : Faithful t p uuid Good state) (qs : List (Smart.Query × Int)) (s : Smart.St σ)
    (hq : ∀ q ∈ qs, ProperQuery q.1) : Explains p uuid Good state s (queries t qs s) := by
  induction qs generalizing s with
  | nil => exact F.keeps.refl s
  | cons q qs ih =>
    exact F.keeps.trans _ _ _ (SmartCam.query_keeps _ (camKeeps F) q.1 (queryAll_of_proper (hq q (.head _))) q.2 s)
      (ih _ fun q h => hq q (.tail _ h))

/-- Camera queries one after the other. -/
theorem queries_once (F : Faithful t p uuid Good state) (s : Smart.St σ) (hs : Good s.world) (hw : s.wire = [])
    (qs : List (Smart.Query × Int)) (hq : ∀ q ∈ qs, ProperQuery q.1) :
    ∃ trace, Sent uuid (queries t qs s).wire (trace.map Prod.fst) ∧ Once p (state s.world) trace (state (queries t qs s).world) := by
  obtain ⟨-, ws, trace, h1, h2, h3⟩ := queries_explains F qs s hq hs
  refine ⟨trace, ?_, h3⟩
  rw [h1, hw]
  exact h2

/-- The result of a query that returns. -/
theorem query_result (F : Faithful t p uuid Good state) {ans : Smart.Request → SmartSpec.Answer} (hans : Speaks p uuid ans)
    (hu : SmartSpec.Unpaged ans) (requests : Dict String Json) (hwf : Dict.WF requests) (hq : ProperQuery (.dict requests))
    (hlen : 2 ≤ requests.length) (before : List (Smart.Query × Int)) (hbefore : ∀ q ∈ before, ProperQuery q.1) (rc : Int) (s : Smart.St σ)
    (hs : Good s.world) (hn : s.batchSize ≠ 1) (r : Dict String Smart.Entry)
    (hr : (SmartCam.query t (.dict requests) rc (queries t before s)).1 = .ok r) :
    (∀ m, m ∈ r.keys ↔ m ∈ requests.keys) ∧
      ∀ m q, (m, q) ∈ requests → Dict.get? r m = some (SmartSpec.entryFor (ans (SmartSpec.requestFor m q))) := by
  have hone : ∀ (w : Smart.Wire), Smart.WireAll JsonText.Proper w → ∀ s : σ, Good s → Good (t.send w s).2 ∧
      ∀ resp, (t.send w s).1 = .ok resp → ∃ j, Message uuid w j ∧ resp = (p.run j (state s)).1 := by
    intro w hw s hg
    obtain ⟨j, res, s', hmsg, h1, h2, h3⟩ := F.step w hw s hg
    rw [h1]
    refine ⟨h2, ?_⟩
    rintro resp rfl
    rcases h3 with ⟨e, he, -⟩ | ⟨e, he, -⟩ | ⟨he, -⟩
    · cases he
    · cases he
    · cases he; exact ⟨j, hmsg, rfl⟩
  have hh : Smart.HonestOr t Good JsonText.Proper ans := by
    refine ⟨fun w hw s hs => (hone w hw s hs).1, fun s hs => (F.reset s hs).1, fun r w hw hs resp he => ?_, fun rs w hw hs resp he => ?_⟩
    · obtain ⟨j, hj, rfl⟩ := (hone _ hw w hs).2 resp he
      exact hans.single r j _ hj
    · obtain ⟨j, hj, rfl⟩ := (hone _ hw w hs).2 resp he
      exact hans.multi rs j _ hj
  have k : SmartCam.Keeps t JsonText.Proper fun a b : Smart.St σ => Good a.world → Good b.world ∧ b.batchSize = a.batchSize :=
    ⟨Smart.honestOr_batchSize hh proper_page, fun j hj s hs => ⟨hh.keep (.raw j) hj _ hs, rfl⟩, SmartCam.proper_camPage,
      SmartCam.proper_named, SmartCam.proper_given⟩
  have key : ∀ (qs : List (Smart.Query × Int)) (s : Smart.St σ), (∀ q ∈ qs, ProperQuery q.1) → Good s.world →
      Good (queries t qs s).world ∧ (queries t qs s).batchSize = s.batchSize := by
    intro qs
    induction qs with
    | nil => intro s _ hg; exact ⟨hg, rfl⟩
    | cons q qs ih =>
      intro s hq hg
      obtain ⟨h1, h2⟩ := SmartCam.query_keeps _ k q.1 (queryAll_of_proper (hq q (.head _))) q.2 s hg
      obtain ⟨h3, h4⟩ := ih _ (fun q h => hq q (.tail _ h)) h1
      exact ⟨h3, h4.trans h2⟩
  obtain ⟨hg, hb⟩ := key before s hbefore hs
  have hqa : Smart.QueryAll JsonText.Proper (.dict requests) := queryAll_of_proper hq
  obtain ⟨s1, h1, h2⟩ := Smart.retried_last t _ rc k.refl k.trans (SmartCam.executeQuery_keeps t k (.dict requests) hqa) k.reset
    (s := queries t before s) (r := r) (Prod.ext hr rfl)
  obtain ⟨hs1, hb1⟩ := h1 hg
  have hsend := fun w hw => Smart.total_below hh w hw
  rw [SmartCam.executeQuery_many requests hlen] at h2
  obtain ⟨h3, -⟩ := Smart.executeMultiple_below hsend (SmartCam.pagerBelow SmartCam.proper_camPage hsend) requests hqa _ hs1 _ _ h2
  obtain ⟨r', s2, h4, h5, h6⟩ := Smart.executeMultiple_honest (Smart.total t Good JsonText.Proper ans) (Smart.total_honest hh) hu
    (some (SmartCam.fetchPage (Smart.total t Good JsonText.Proper ans))) requests hwf (by omega) s1 (by rw [hb1, hb]; exact hn)
  rw [h3] at h4
  cases h4
  exact ⟨h5, h6⟩

theorem not_raw {m : String} (hm : Plain m) : m ∉ SmartCam.rawMethods ∧ Smart.forceSingleRequest.contains m = false ∧ m ≠ "" := by
  simp only [Plain, List.mem_cons, List.not_mem_nil, or_false, not_or] at hm
  obtain ⟨h1, h2, h3, h4, h5, h6, h7⟩ := hm
  refine ⟨?_, ?_, h1⟩
  · simp [SmartCam.rawMethods, h2, h3, h4, h5]
  · simp [Smart.forceSingleRequest, h6, h7]

/-- One attempt of a query for one method: one message, on its own or as a batch of one. -/
theorem one_message (m : String) (hm : Plain m) (q : Json) (s : Smart.St σ) :
    ∃ w, (w = .single (Smart.mkRequest m q) ∨ w = .multi [Smart.mkRequest m q]) ∧
      (∀ e s', t.send w s.world = (.error e, s') →
        SmartCam.executeQuery t (.dict [(m, q)]) s = (.error e, { s with world := s', wire := s.wire ++ [w] })) ∧
      ∀ resp s' v, v.get? "start_index" = none → t.send w s.world = (.ok resp, s') →
        (w = .single (Smart.mkRequest m q) → SmartSpec.Carries resp (0, some v)) →
        (w = .multi [Smart.mkRequest m q] → ∃ item res, SmartSpec.Carries resp (0, some res) ∧
          res.get? "responses" = some (.arr [item]) ∧ item.get? "method" = some (.str m) ∧ SmartSpec.Carries item (0, some v)) →
        SmartCam.executeQuery t (.dict [(m, q)]) s = (.ok [(m, .value v)], { s with world := s', wire := s.wire ++ [w] }) := by
  obtain ⟨hraw, hforce, hne⟩ := not_raw hm
  have hcheck : ∀ {resp : Json} {v : Json}, SmartSpec.Carries resp (0, some v) → Smart.checkResponse true resp = .ok none := by
    rintro resp v ⟨⟨kvs, rfl⟩, h1, -⟩
    have h1 : Dict.get? kvs "error_code" = some (.num 0) := h1
    simp only [Smart.checkResponse, h1]
    rfl
  have hmr : Smart.multiRequests [(m, q)] = [Smart.mkRequest m q] := by
    unfold Smart.multiRequests
    rw [List.filter_cons, if_pos (by simp only [hforce]; rfl)]
    rfl
  have hex : SmartCam.executeQuery t (.dict [(m, q)]) = Smart.executeMultiple t (some (SmartCam.fetchPage t)) [(m, q)] := by
    simp only [SmartCam.executeQuery, hraw, if_false]
  rw [hex]
  by_cases hb : s.batchSize = 1
  · refine ⟨_, .inl rfl, ?_, ?_⟩
    · intro e s' hs
      rw [Smart.executeMultiple_one t _ _ s hb, hmr, foldM_cons, bind_apply]
      unfold Smart.queryUnbatched
      rw [bind_apply, Smart.send_apply, hs]
    · intro resp s' v hv hs h1 _
      have h1 := h1 rfl
      rw [Smart.executeMultiple_one t _ _ s hb, hmr, foldM_cons, bind_apply]
      unfold Smart.queryUnbatched
      rw [bind_apply, Smart.send_apply, hs]
      simp only [bind_apply, lift_apply, List.length_singleton, beq_self_eq_true, hcheck h1, Smart.resultIndex, h1.2.2]
      rfl
  · rw [Smart.executeMultiple_apply t _ _ s hb, hmr]
    by_cases h0 : s.batchSize = 0
    · have hst : Smart.batchStarts [(m, q)].length s.batchSize = [] := by rw [h0]; simp [Smart.batchStarts]
      have hmissing : Smart.queryMissing t ([(m, q)].length == 1) [] (m, q) = (do
          let resp ← Smart.send t (.single (Smart.mkRequest m q))
          let replaced ← lift (Smart.checkResponse true resp)
          pure (Dict.set [] m (Smart.resultGet resp replaced))) := rfl
      rw [hst]
      refine ⟨_, .inl rfl, ?_, ?_⟩
      · intro e s' hs
        rw [bind_apply, foldM_nil]
        simp only [pure_apply, foldM_cons, bind_apply]
        rw [hmissing, bind_apply, Smart.send_apply, hs]
      · intro resp s' v hv hs h1 _
        have h1 := h1 rfl
        rw [bind_apply, foldM_nil]
        simp only [pure_apply, foldM_cons, bind_apply]
        rw [hmissing, bind_apply, Smart.send_apply, hs]
        simp only [bind_apply, lift_apply, hcheck h1, Smart.resultGet, h1.2.2]
        rfl
    · have hst : Smart.batchStarts [(m, q)].length s.batchSize = [0] := by
        unfold Smart.batchStarts
        have : ([(m, q)].length + s.batchSize - 1) / s.batchSize = 1 := by
          rw [List.length_singleton, Nat.add_sub_cancel_left, Nat.div_self (by omega)]
        rw [this]
        simp [List.range_succ]
      have htake : ([Smart.mkRequest m q].drop 0).take s.batchSize = [Smart.mkRequest m q] := by
        rw [List.drop_zero, List.take_of_length_le (by rw [List.length_singleton]; omega)]
      rw [hst]
      refine ⟨_, .inr rfl, ?_, ?_⟩
      · intro e s' hs
        rw [bind_apply, foldM_cons, bind_apply]
        unfold Smart.sendBatch
        rw [htake, bind_apply, Smart.send_apply, hs]
      · intro resp s' v hv hs _ h1
        obtain ⟨item, res, h2, h3, h4, h5⟩ := h1 rfl
        have hbatch : Smart.batchResponses resp = .ok [item] := by
          unfold Smart.batchResponses
          rw [h2.2.2]
          cases res with
          | obj kvs =>
            have h3 : Dict.get? kvs "responses" = some (.arr [item]) := h3
            simp only [h3]
          | _ => cases h3
        have hitem : ∀ s : Smart.St σ, Smart.processResponse (some (SmartCam.fetchPage t)) [(m, q)] true [] item s = (.ok [(m, .value v)], s) := by
          intro s
          have hc := hcheck h5
          have hres := h5.2.2
          obtain ⟨⟨kvs, rfl⟩, -, -⟩ := h5
          have h4 : Dict.get? kvs "method" = some (.str m) := h4
          unfold Smart.processResponse
          simp only [h4, hne, if_false, bind_apply, lift_apply, hc, Smart.resultGet, hres, Option.getD_some]
          have := Smart.completeEntry_unpaged (some (SmartCam.fetchPage t)) m ((Dict.get? [(m, q)] m).getD .null) (0, some v)
            (fun w hw => by cases hw; exact hv) s
          have h0 : SmartSpec.entryFor (0, some v) = .value v := rfl
          rw [h0] at this
          rw [this]
          rfl
        rw [bind_apply, foldM_cons, bind_apply]
        unfold Smart.sendBatch
        rw [htake, bind_apply, Smart.send_apply, hs]
        simp only [bind_apply, Smart.checkBatch_apply, hcheck h2, lift_apply, hbatch, List.length_singleton, beq_self_eq_true,
          foldM_cons, foldM_nil, hitem, pure_apply]
        unfold Smart.queryMissing
        simp [Dict.has, Dict.get?]

theorem wire_all {m : String} {q : Json} (hq : JsonText.Proper q) {w : Smart.Wire}
    (hw : w = .single (Smart.mkRequest m q) ∨ w = .multi [Smart.mkRequest m q]) : Smart.WireAll JsonText.Proper w := by
  rcases hw with rfl | rfl
  · exact Smart.mkRequest_wireAll hq
  · intro r hr
    rw [List.mem_singleton] at hr
    subst hr
    exact Smart.mkRequest_wireAll hq

/-- One attempt when the message gets its answer. -/
theorem one_answered (m : String) (hm : Plain m) (q : Json) {f : α → α} {v : Json} (hset : Sets p uuid (SmartSpec.requestFor m q) f v)
    (s : Smart.St σ) : ∃ w, (w = .single (Smart.mkRequest m q) ∨ w = .multi [Smart.mkRequest m q]) ∧
      (∀ e s', t.send w s.world = (.error e, s') →
        SmartCam.executeQuery t (.dict [(m, q)]) s = (.error e, { s with world := s', wire := s.wire ++ [w] })) ∧
      ∀ j a s', Message uuid w j → t.send w s.world = (.ok (p.run j a).1, s') →
        SmartCam.executeQuery t (.dict [(m, q)]) s = (.ok [(m, .value v)], { s with world := s', wire := s.wire ++ [w] }) := by
  obtain ⟨w, h1, h2, h3⟩ := one_message (t := t) m hm q s
  refine ⟨w, h1, h2, fun j a s' hmsg hs => h3 _ s' v hset.unpaged hs (fun hw => ?_) fun hw => ?_⟩
  · rw [hw] at hmsg
    exact hset.single j a hmsg
  · rw [hw] at hmsg
    exact hset.batch j a hmsg

/-- A query that sets something. -/
theorem setter (F : Faithful t p uuid Good state) (m : String) (hm : Plain m) (q : Json) (hq : JsonText.Proper q) {f : α → α} {v : Json}
    (hset : Sets p uuid (SmartSpec.requestFor m q) f v) (before : List (Smart.Query × Int)) (hbefore : ∀ q ∈ before, ProperQuery q.1) (rc : Int)
    (s0 : Smart.St σ) (hs0 : Good s0.world) :
    let s := queries t before s0
    let out := SmartCam.query t (.dict [(m, q)]) rc s
    (∀ r, out.1 = .ok r → r = [(m, .value v)] ∧ state out.2.world = f (state s.world)) ∧
      ∀ e, out.1 = .error e → state out.2.world = state s.world ∨ state out.2.world = f (state s.world) := by
  intro s out
  have hg : Good s.world := (queries_explains F before s0 hbefore hs0).1
  -- one attempt
  have hatt : ∀ s : Smart.St σ, Good s.world → Good (SmartCam.executeQuery t (.dict [(m, q)]) s).2.world ∧
      ((∃ e, (SmartCam.executeQuery t (.dict [(m, q)]) s).1 = .error e ∧
          (state (SmartCam.executeQuery t (.dict [(m, q)]) s).2.world = state s.world ∨
            state (SmartCam.executeQuery t (.dict [(m, q)]) s).2.world = f (state s.world))) ∨
        ((SmartCam.executeQuery t (.dict [(m, q)]) s).1 = .ok [(m, .value v)] ∧
          state (SmartCam.executeQuery t (.dict [(m, q)]) s).2.world = f (state s.world))) := by
    intro s hg
    obtain ⟨w, hw, hbad, hgood⟩ := one_answered (t := t) m hm q hset s
    obtain ⟨j, res, s', hmsg, ht, h2, h3⟩ := F.step w (wire_all hq hw) s.world hg
    have hst : (p.run j (state s.world)).2 = f (state s.world) := by
      refine hset.state _ _ ?_
      rcases hw with rfl | rfl
      · exact .inl hmsg
      · exact .inr hmsg
    rcases h3 with ⟨e, rfl, he⟩ | ⟨e, rfl, he⟩ | ⟨rfl, he⟩
    · rw [hbad _ _ ht]
      exact ⟨h2, .inl ⟨e, rfl, .inl he⟩⟩
    · rw [hbad _ _ ht]
      exact ⟨h2, .inl ⟨e, rfl, .inr (he.trans hst)⟩⟩
    · rw [hgood _ _ _ hmsg ht]
      exact ⟨h2, .inr ⟨rfl, he.trans hst⟩⟩
  let R : Smart.St σ → Smart.St σ → Prop := fun a b =>
    Good a.world → Good b.world ∧ (state b.world = state a.world ∨ state b.world = f (state a.world))
  have hrefl : ∀ s, R s s := fun s hg => ⟨hg, .inl rfl⟩
  have htrans : ∀ a b c, R a b → R b c → R a c := by
    intro a b c h1 h2 hg
    obtain ⟨g1, e1⟩ := h1 hg
    obtain ⟨g2, e2⟩ := h2 g1
    refine ⟨g2, ?_⟩
    rcases e1 with e1 | e1 <;> rcases e2 with e2 | e2 <;> rw [e2, e1]
    · exact .inl rfl
    · exact .inr rfl
    · exact .inr rfl
    · rw [hset.idem]; exact .inr rfl
  have hattR : Rel R (SmartCam.executeQuery t (.dict [(m, q)])) := by
    intro s hg
    obtain ⟨h1, h2⟩ := hatt s hg
    refine ⟨h1, ?_⟩
    rcases h2 with ⟨e, -, h2⟩ | ⟨-, h2⟩
    · exact h2
    · exact .inr h2
  have hresetR : ∀ s : Smart.St σ, R s { s with world := (t.reset s.world).2 } := fun s hg => ⟨(F.reset s.world hg).1, .inl (F.reset s.world hg).2⟩
  constructor
  · intro r hr
    obtain ⟨s1, h1, h2⟩ := Smart.retried_last t _ rc hrefl htrans hattR hresetR (s := s) (s' := out.2) (r := r) (Prod.ext hr rfl)
    obtain ⟨g1, e1⟩ := h1 hg
    obtain ⟨-, h3⟩ := hatt s1 g1
    rw [h2] at h3
    rcases h3 with ⟨e, he, -⟩ | ⟨h3, h4⟩
    · cases he
    · cases h3
      refine ⟨rfl, ?_⟩
      simp only at h4
      rcases e1 with e1 | e1
      · rw [h4, e1]
      · rw [h4, e1, hset.idem]
  · intro e _
    exact (Smart.retried_rel t _ rc hrefl htrans hattR hresetR s hg).2

end
end Kasa.CamEndToEnd
