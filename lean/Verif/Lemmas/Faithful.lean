import Verif.Props.EndToEnd
/-!
# SMART queries over a transport that carries requests out at most once

The part of C75 about queries, for any transport.
-/

namespace Kasa.EndToEnd
open PyM

/-- What a transport must do for one message: `state` is that of the device's program, `text` the message as it is sent. -/
structure Faithful {σ α : Type} (t : Smart.Transport σ) (p : Program α) (uuid : String) (Good : σ → Prop) (state : σ → α) : Prop where
  step : ∀ w, Smart.WireAll JsonText.Proper w → ∀ s, Good s → ∃ j res s', Message uuid w j ∧ t.send w s = (res, s') ∧ Good s' ∧
    ((∃ e, res = .error e ∧ state s' = state s) ∨ (∃ e, res = .error e ∧ state s' = (p.run j (state s)).2) ∨
      (res = .ok (p.run j (state s)).1 ∧ state s' = (p.run j (state s)).2))
  reset : ∀ s, Good s → Good (t.reset s).2 ∧ state (t.reset s).2 = state s

section
variable {σ α : Type} {t : Smart.Transport σ} {p : Program α} {uuid : String} {Good : σ → Prop} {state : σ → α}

/-- What a stretch of a query does. -/
def Explains (p : Program α) (uuid : String) (Good : σ → Prop) (state : σ → α) (a b : Smart.St σ) : Prop :=
  Good a.world → Good b.world ∧ ∃ ws trace, b.wire = a.wire ++ ws ∧ Sent uuid ws (trace.map Prod.fst) ∧
    Once p (state a.world) trace (state b.world)

theorem Faithful.keeps (F : Faithful t p uuid Good state) : Smart.Keeps t JsonText.Proper (Explains p uuid Good state) := by
  have hsend : ∀ w, Smart.WireAll JsonText.Proper w → Rel (Explains p uuid Good state) (Smart.send t w) := by
    intro w hw s hg
    obtain ⟨j, res, s', hmsg, h1, h2, h3⟩ := F.step w hw s.world hg
    rw [Smart.send_apply, h1]
    refine ⟨h2, [w], [(j, res)], rfl, .cons hmsg .nil, ?_⟩
    show Once p (state s.world) _ (state s')
    rcases h3 with ⟨e, rfl, he⟩ | ⟨e, rfl, he⟩ | ⟨rfl, he⟩
    · rw [he]; exact .failed (.nil _)
    · rw [he]; exact .unanswered (.nil _)
    · rw [he]; exact .answered (.nil _)
  have hrefl : ∀ s, Explains p uuid Good state s s := fun s hg => ⟨hg, [], [], by simp, .nil, .nil _⟩
  have htrans : ∀ a b c, Explains p uuid Good state a b → Explains p uuid Good state b c → Explains p uuid Good state a c := by
    intro a b c h1 h2 hg
    obtain ⟨g1, ws1, t1, e1, s1, o1⟩ := h1 hg
    obtain ⟨g2, ws2, t2, e2, s2, o2⟩ := h2 g1
    exact ⟨g2, ws1 ++ ws2, t1 ++ t2, by rw [e2, e1, List.append_assoc], by rw [List.map_append]; exact s1.append s2, o1.append o2⟩
  refine ⟨hrefl, htrans, proper_page, fun r hr => hsend _ hr, fun rs hr => ?_, fun s hg =>
    ⟨(F.reset s.world hg).1, [], [], by simp, .nil, by show Once p (state s.world) [] (state (t.reset s.world).2); rw [(F.reset s.world hg).2]; exact .nil _⟩⟩
  refine Rel.bind htrans (hsend _ hr) fun resp => Rel.bind htrans (fun s => ?_) fun _ => Rel.pure hrefl _
  rw [Smart.checkBatch_apply]
  split
  · exact hrefl s
  · split
    · exact fun hg => ⟨hg, [], [], by simp, .nil, .nil _⟩
    · exact hrefl s

theorem Faithful.queries_explains (F : Faithful t p uuid Good state) (qs : List (Smart.Query × Int)) (s : Smart.St σ)
    (hq : ∀ q ∈ qs, ProperQuery q.1) : Explains p uuid Good state s (queries t qs s) := by
  induction qs generalizing s with
  | nil => exact F.keeps.refl s
  | cons q qs ih =>
    exact F.keeps.trans _ _ _ (Smart.query_keeps _ F.keeps q.1 (queryAll_of_proper (hq q (.head _))) q.2 s) (ih _ fun q h => hq q (.tail _ h))

/-- Queries one after the other. -/
theorem Faithful.queries_once (F : Faithful t p uuid Good state) (s : Smart.St σ) (hs : Good s.world) (hw : s.wire = [])
    (qs : List (Smart.Query × Int)) (hq : ∀ q ∈ qs, ProperQuery q.1) :
    ∃ trace, Sent uuid (queries t qs s).wire (trace.map Prod.fst) ∧ Once p (state s.world) trace (state (queries t qs s).world) := by
  obtain ⟨-, ws, trace, h1, h2, h3⟩ := F.queries_explains qs s hq hs
  refine ⟨trace, ?_, h3⟩
  rw [h1, hw]
  exact h2

/-- The result of a query that returns. -/
theorem Faithful.query_result (F : Faithful t p uuid Good state) {ans : Smart.Request → SmartSpec.Answer} (hans : Speaks p uuid ans)
    (hu : SmartSpec.Unpaged ans) (requests : Dict String Json) (hwf : Dict.WF requests) (hq : ProperQuery (.dict requests))
    (hlen : requests.length ≠ 1) (before : List (Smart.Query × Int)) (hbefore : ∀ q ∈ before, ProperQuery q.1) (rc : Int) (s : Smart.St σ)
    (hs : Good s.world) (hn : s.batchSize ≠ 1) (r : Dict String Smart.Entry)
    (hr : (Smart.query t (.dict requests) rc (queries t before s)).1 = .ok r) :
    (∀ m, m ∈ r.keys ↔ m ∈ requests.keys) ∧
      ∀ m q, (m, q) ∈ requests → Dict.get? r m = some (SmartSpec.entryFor (ans (SmartSpec.requestFor m q))) := by
  have hone : ∀ (w : Smart.Wire), Smart.WireAll JsonText.Proper w → ∀ s : σ, Good s → Good (t.send w s).2 ∧
      ∀ resp, (t.send w s).1 = .ok resp → ∃ j, Message uuid w j ∧ resp = (p.run j (state s)).1 := by
    intro w hw s hg
    obtain ⟨j, res, s', hmsg, h1, h2, h3⟩ := F.step w hw s hg
    rw [h1]
    refine ⟨h2, ?_⟩
    rintro resp rfl
    rcases h3 with ⟨e, he, -⟩ | ⟨e, he, -⟩ | ⟨he, -⟩
    · cases he
    · cases he
    · cases he; exact ⟨j, hmsg, rfl⟩
  have hh : Smart.HonestOr t Good JsonText.Proper ans := by
    refine ⟨fun w hw s hs => (hone w hw s hs).1, fun s hs => (F.reset s hs).1, fun r w hw hs resp he => ?_, fun rs w hw hs resp he => ?_⟩
    · obtain ⟨j, hj, rfl⟩ := (hone _ hw w hs).2 resp he
      exact hans.single r j _ hj
    · obtain ⟨j, hj, rfl⟩ := (hone _ hw w hs).2 resp he
      exact hans.multi rs j _ hj
  have k := Smart.honestOr_batchSize hh proper_page
  have key : ∀ (qs : List (Smart.Query × Int)) (s : Smart.St σ), (∀ q ∈ qs, ProperQuery q.1) → Good s.world →
      Good (queries t qs s).world ∧ (queries t qs s).batchSize = s.batchSize := by
    intro qs
    induction qs with
    | nil => intro s _ hg; exact ⟨hg, rfl⟩
    | cons q qs ih =>
      intro s hq hg
      obtain ⟨h1, h2⟩ := Smart.query_keeps _ k q.1 (queryAll_of_proper (hq q (.head _))) q.2 s hg
      obtain ⟨h3, h4⟩ := ih _ (fun q h => hq q (.tail _ h)) h1
      exact ⟨h3, h4.trans h2⟩
  obtain ⟨hg, hb⟩ := key before s hbefore hs
  exact Smart.query_honestOr hh proper_page hu requests hwf (fun kv hkv => hq kv.1 kv.2 hkv) hlen rc _ _ hg (by rw [hb]; exact hn) r
    (Prod.ext hr rfl)

/-- A query that sets something. -/
theorem Faithful.setter (F : Faithful t p uuid Good state) (m : String) (q : Json) (hq : JsonText.Proper q) {f : α → α} {v : Json}
    (hset : Sets p uuid (SmartSpec.requestFor m q) f v) (before : List (Smart.Query × Int)) (hbefore : ∀ q ∈ before, ProperQuery q.1) (rc : Int)
    (s0 : Smart.St σ) (hs0 : Good s0.world) :
    let s := queries t before s0
    let out := Smart.query t (.dict [(m, q)]) rc s
    (∀ r, out.1 = .ok r → r = [(m, .value v)] ∧ state out.2.world = f (state s.world)) ∧
      ∀ e, out.1 = .error e → state out.2.world = state s.world ∨ state out.2.world = f (state s.world) := by
  intro s out
  have hg : Good s.world := (F.queries_explains before s0 hbefore hs0).1
  -- one attempt
  have hatt : ∀ s : Smart.St σ, Good s.world → Good (Smart.executeQuery t (.dict [(m, q)]) s).2.world ∧
      ((∃ e, (Smart.executeQuery t (.dict [(m, q)]) s).1 = .error e ∧
          (state (Smart.executeQuery t (.dict [(m, q)]) s).2.world = state s.world ∨
            state (Smart.executeQuery t (.dict [(m, q)]) s).2.world = f (state s.world))) ∨
        ((Smart.executeQuery t (.dict [(m, q)]) s).1 = .ok [(m, .value v)] ∧
          state (Smart.executeQuery t (.dict [(m, q)]) s).2.world = f (state s.world))) := by
    intro s hg
    have hw : Smart.WireAll JsonText.Proper (.single (Smart.mkRequest m q)) := Smart.mkRequest_wireAll hq
    obtain ⟨j, res, s', hmsg, ht, h2, h3⟩ := F.step _ hw s.world hg
    have hst : (p.run j (state s.world)).2 = f (state s.world) := hset.state _ _ hmsg
    rw [Smart.executeQuery_one, bind_apply]
    rcases h3 with ⟨e, rfl, he⟩ | ⟨e, rfl, he⟩ | ⟨rfl, he⟩
    · have : Smart.executeSingle t m q s = (.error e, { s with world := s', wire := s.wire ++ [.single (Smart.mkRequest m q)] }) := by
        unfold Smart.executeSingle
        rw [bind_apply, Smart.send_apply, ht]
      rw [this]
      exact ⟨h2, .inl ⟨e, rfl, .inl he⟩⟩
    · have : Smart.executeSingle t m q s = (.error e, { s with world := s', wire := s.wire ++ [.single (Smart.mkRequest m q)] }) := by
        unfold Smart.executeSingle
        rw [bind_apply, Smart.send_apply, ht]
      rw [this]
      exact ⟨h2, .inl ⟨e, rfl, .inr (he.trans hst)⟩⟩
    · rw [Smart.executeSingle_carries t ht (hset.answer _ _ hmsg)]
      simp only
      have hc : Smart.completeEntry (some fun m _ n => Smart.fetchPage t m n) m q (.value v)
          { s with world := s', wire := s.wire ++ [.single (Smart.mkRequest m q)] } =
          (.ok (.value v), { s with world := s', wire := s.wire ++ [.single (Smart.mkRequest m q)] }) := by
        unfold Smart.completeEntry
        simp only
        split
        · rw [bind_apply, Smart.handleResponseLists_unpaged _ v hset.unpaged]
          rfl
        · rfl
      rw [bind_apply, hc]
      exact ⟨h2, .inr ⟨rfl, he.trans hst⟩⟩
  let R : Smart.St σ → Smart.St σ → Prop := fun a b =>
    Good a.world → Good b.world ∧ (state b.world = state a.world ∨ state b.world = f (state a.world))
  have hrefl : ∀ s, R s s := fun s hg => ⟨hg, .inl rfl⟩
  have htrans : ∀ a b c, R a b → R b c → R a c := by
    intro a b c h1 h2 hg
    obtain ⟨g1, e1⟩ := h1 hg
    obtain ⟨g2, e2⟩ := h2 g1
    refine ⟨g2, ?_⟩
    rcases e1 with e1 | e1 <;> rcases e2 with e2 | e2 <;> rw [e2, e1]
    · exact .inl rfl
    · exact .inr rfl
    · exact .inr rfl
    · rw [hset.idem]; exact .inr rfl
  have hattR : Rel R (Smart.executeQuery t (.dict [(m, q)])) := by
    intro s hg
    obtain ⟨h1, h2⟩ := hatt s hg
    refine ⟨h1, ?_⟩
    rcases h2 with ⟨e, -, h2⟩ | ⟨-, h2⟩
    · exact h2
    · exact .inr h2
  have hresetR : ∀ s : Smart.St σ, R s { s with world := (t.reset s.world).2 } := fun s hg => ⟨(F.reset s.world hg).1, .inl (F.reset s.world hg).2⟩
  constructor
  · intro r hr
    obtain ⟨s1, h1, h2⟩ := Smart.query_last t _ rc hrefl htrans hattR hresetR (s := s) (s' := out.2) (r := r) (Prod.ext hr rfl)
    obtain ⟨g1, e1⟩ := h1 hg
    obtain ⟨-, h3⟩ := hatt s1 g1
    rw [h2] at h3
    rcases h3 with ⟨e, he, -⟩ | ⟨h3, h4⟩
    · cases he
    · cases h3
      refine ⟨rfl, ?_⟩
      simp only at h4
      rcases e1 with e1 | e1
      · rw [h4, e1]
      · rw [h4, e1, hset.idem]
  · intro e _
    have : Rel R (Smart.query t (.dict [(m, q)]) rc) := by
      rw [Smart.query_unfold]
      exact Retry.loop_rel hrefl htrans true _ (fun _ => hattR) (fun s => hresetR s) (fun s => hrefl s) rc _
    exact (this s hg).2

/-- A query that sets something, when the first message gets its answer. -/
theorem setter_works (m : String) (q : Json) {f : α → α} {v : Json} (hset : Sets p uuid (SmartSpec.requestFor m q) f v) (rc : Nat) (s : Smart.St σ) {s' : σ}
    {j : Json} (hmsg : Message uuid (.single (Smart.mkRequest m q)) j) {a : α} (ht : t.send (.single (Smart.mkRequest m q)) s.world = (.ok (p.run j a).1, s')) :
    Smart.query t (.dict [(m, q)]) rc s = (.ok [(m, .value v)], { s with world := s', wire := s.wire ++ [.single (Smart.mkRequest m q)] }) := by
  have h1 : Smart.executeQuery t (.dict [(m, q)]) s = (.ok [(m, .value v)], { s with world := s', wire := s.wire ++ [.single (Smart.mkRequest m q)] }) := by
    rw [Smart.executeQuery_one, bind_apply, Smart.executeSingle_carries t ht (hset.answer _ _ hmsg)]
    simp only
    have hc : Smart.completeEntry (some fun m _ n => Smart.fetchPage t m n) m q (.value v)
        { s with world := s', wire := s.wire ++ [.single (Smart.mkRequest m q)] } =
        (.ok (.value v), { s with world := s', wire := s.wire ++ [.single (Smart.mkRequest m q)] }) := by
      unfold Smart.completeEntry
      simp only
      split
      · rw [bind_apply, Smart.handleResponseLists_unpaged _ v hset.unpaged]
        rfl
      · rfl
    rw [bind_apply, hc]
    rfl
  rw [Smart.query_unfold]
  unfold Retry.smartQuery
  have : (rc + 1 : Int).toNat = rc + 1 := by omega
  rw [this, List.range_succ_eq_map]
  unfold Retry.loop
  exact tryExcept_ok h1

end
end Kasa.EndToEnd
