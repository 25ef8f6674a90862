import Verif.Lemmas.Faithful
import Verif.Spec.ReadBack
import Verif.Props.SmartDevice
/-!
# Queries that read

What a query returns from a device whose answers may depend on its state, over a transport that may fail.
-/

namespace Kasa.Smart
open PyM SmartSpec

section
variable {σ α β : Type}

/-- `m` keeps `I` and the batch size, and what it returns satisfies `Q`. -/
def Tri (I : σ → Prop) (m : PyM (St σ) α) (Q : α → Prop) : Prop :=
  ∀ s, I s.world → I (m s).2.world ∧ (m s).2.batchSize = s.batchSize ∧ ∀ a, (m s).1 = .ok a → Q a

variable {I : σ → Prop}

theorem Tri.pure {a : α} {Q : α → Prop} (h : Q a) : Tri I (Pure.pure a) Q := fun _ hs => ⟨hs, rfl, fun _ e => by cases e; exact h⟩

theorem Tri.raise (e : Exc) (Q : α → Prop) : Tri I (PyM.raise e) Q := fun _ hs => ⟨hs, rfl, fun _ e => by cases e⟩

theorem Tri.lift (o : Except Exc α) : Tri I (PyM.lift o) (fun a => o = .ok a) := by
  intro s hs
  rw [lift_apply]
  exact ⟨hs, rfl, fun a e => e⟩

theorem Tri.bind {m : PyM (St σ) α} {f : α → PyM (St σ) β} {Q : α → Prop} {Q' : β → Prop} (hm : Tri I m Q)
    (hf : ∀ a, Q a → Tri I (f a) Q') : Tri I (m >>= f) Q' := by
  intro s hs
  obtain ⟨h1, h2, h3⟩ := hm s hs
  rw [bind_apply]
  cases hms : m s with
  | mk o s1 =>
    rw [hms] at h1 h2 h3
    cases o with
    | error e => exact ⟨h1, h2, fun _ h => by cases h⟩
    | ok a =>
      obtain ⟨k1, k2, k3⟩ := hf a (h3 a rfl) s1 h1
      exact ⟨k1, k2.trans h2, k3⟩

theorem Tri.weaken {m : PyM (St σ) α} {Q Q' : α → Prop} (hm : Tri I m Q) (h : ∀ a, Q a → Q' a) : Tri I m Q' :=
  fun s hs => ⟨(hm s hs).1, (hm s hs).2.1, fun a e => h a ((hm s hs).2.2 a e)⟩

theorem Tri.foldM {ι : Type} {f : α → ι → PyM (St σ) α} {Q : α → Prop} (l : List ι)
    (h : ∀ a, Q a → ∀ i ∈ l, Tri I (f a i) Q) (a : α) (ha : Q a) : Tri I (PyM.foldM f a l) Q := by
  induction l generalizing a with
  | nil => exact Tri.pure ha
  | cons i l ih =>
    rw [foldM_cons]
    exact Tri.bind (h a ha i (.head _)) fun a ha => ih (fun a ha i hi => h a ha i (.tail _ hi)) a ha

end

section
variable {σ : Type}

/-- In the states `I`, the transport passes on what the device may answer to requests `Rs`, or fails. -/
structure Tells (t : Transport σ) (Rs : Request → Prop) (I : σ → Prop) (May : Request → Answer → Prop) : Prop where
  single : ∀ r, Rs r → ∀ w, I w → I (t.send (.single r) w).2 ∧
    ∀ resp, (t.send (.single r) w).1 = .ok resp → ∃ a, May r a ∧ Carries resp a
  multi : ∀ rs, (∀ r ∈ rs, Rs r) → ∀ w, I w → I (t.send (.multi rs) w).2 ∧
    ∀ resp, (t.send (.multi rs) w).1 = .ok resp → ∃ items, resp.get? "error_code" = some (.num 0) ∧
      (∃ res, resp.get? "result" = some res ∧ res.get? "responses" = some (.arr items)) ∧
      ∀ item ∈ items, ∃ r ∈ rs, item.get? "method" = some (.str r.method) ∧ ∃ a, May r a ∧ Carries item a
  reset : ∀ w, I w → I (t.reset w).2
  unpaged : ∀ r a v, May r a → a.2 = some v → v.get? "start_index" = none

/-- The entries so far are ones that the device may have answered. -/
def Told (May : Request → Answer → Prop) (requests : Dict String Json) (acc : Dict String Entry) : Prop :=
  Dict.WF acc ∧ ∀ m e, acc.get? m = some e → ∃ p, (m, p) ∈ requests ∧ ∃ a, May (requestFor m p) a ∧ e = entryFor a

theorem Told.nil {May : Request → Answer → Prop} {requests : Dict String Json} : Told May requests [] :=
  ⟨Dict.WF_nil, fun _ _ he => by cases he⟩

variable {t : Transport σ} {Rs : Request → Prop} {I : σ → Prop} {May : Request → Answer → Prop}

theorem Told.set {requests : Dict String Json} {acc : Dict String Entry} (h : Told May requests acc) {m : String} {p : Json}
    (hm : (m, p) ∈ requests) {a : Answer} (ha : May (requestFor m p) a) : Told May requests (acc.set m (entryFor a)) := by
  refine ⟨Dict.WF_set h.1 _ _, ?_⟩
  intro m' e he
  rw [Dict.get?_set] at he
  split at he
  · rename_i heq; subst heq; cases he; exact ⟨p, hm, a, ha, rfl⟩
  · exact h.2 m' e he

theorem send_single_tells (h : Tells t Rs I May) (r : Request) (hr : Rs r) :
    Tri I (send t (.single r)) (fun resp => ∃ a, May r a ∧ Carries resp a) := by
  intro s hs
  rw [send_apply]
  obtain ⟨h1, h2⟩ := h.single r hr s.world hs
  exact ⟨h1, rfl, h2⟩

/-- What a check that raises lets through, a check that does not raise gives as well. -/
theorem checkResponse_either {raises : Bool} {resp : Json} {a : Answer} (hc : Carries resp a) {x : Option Int}
    (hx : checkResponse raises resp = .ok x) : x = if a.1 = 0 then none else some (CodesSpec.reported a.1) := by
  cases raises with
  | false => rw [checkResponse_carries hc] at hx; cases hx; rfl
  | true =>
    rw [checkResponse_carries_raise hc] at hx
    by_cases h0 : a.1 = 0
    · rw [h0] at hx ⊢
      cases hx
      rfl
    · have : ∃ e, CodesSpec.expected a.1 = .error e := by
        unfold CodesSpec.expected
        rw [if_neg h0]
        repeat' split
        all_goals exact ⟨_, rfl⟩
      obtain ⟨e, he⟩ := this
      rw [he] at hx
      cases hx

theorem processResponse_tells (h : Tells t Rs I May) {pager : Pager σ} {requests : Dict String Json} {raises : Bool}
    {item : Json} {m : String} {p : Json} (hm : (m, p) ∈ requests) (hmeth : item.get? "method" = some (.str m))
    {a : Answer} (ha : May (requestFor m p) a) (hc : Carries item a) (acc : Dict String Entry) (hacc : Told May requests acc) :
    Tri I (processResponse pager requests raises acc item) (Told May requests) := by
  obtain ⟨kvs, hk⟩ := hc.1
  subst hk
  have hmeth' : Dict.get? kvs "method" = some (.str m) := hmeth
  unfold processResponse
  simp only [hmeth']
  by_cases h0 : m = ""
  · rw [if_pos h0]; exact Tri.pure hacc
  · rw [if_neg h0]
    refine Tri.bind (Tri.lift _) fun x hx => ?_
    obtain rfl := checkResponse_either hc hx
    rw [resultGet_carries hc]
    refine Tri.bind (Q := fun e => e = entryFor a) (fun s hs => ?_) fun e he => ?_
    · rw [completeEntry_unpaged pager m _ a (fun v hv => h.unpaged _ a v ha hv) s]
      exact ⟨hs, rfl, fun _ e => by cases e; rfl⟩
    · subst he
      exact Tri.pure (hacc.set hm ha)

theorem sendBatch_tells (h : Tells t Rs I May) {pager : Pager σ} {requests : Dict String Json}
    (hRs : ∀ m p, (m, p) ∈ requests → Rs (requestFor m p)) {raises : Bool}
    (step i : Nat) (acc : Dict String Entry) (hacc : Told May requests acc) :
    Tri I (sendBatch t pager requests raises (multiRequests requests) step acc i) (Told May requests) := by
  have hmem : ∀ r ∈ ((multiRequests requests).drop i).take step, ∃ m p, (m, p) ∈ requests ∧ r = mkRequest m p := by
    intro r hr
    obtain ⟨m, p, hm, _, hr⟩ := mem_multiRequests.mp (List.mem_of_mem_drop (List.mem_of_mem_take hr))
    exact ⟨m, p, hm, hr⟩
  unfold sendBatch
  refine Tri.bind (Q := fun resp => ∃ items, resp.get? "error_code" = some (.num 0) ∧
      (∃ res, resp.get? "result" = some res ∧ res.get? "responses" = some (.arr items)) ∧
      ∀ item ∈ items, ∃ r ∈ ((multiRequests requests).drop i).take step, item.get? "method" = some (.str r.method) ∧
        ∃ a, May r a ∧ Carries item a) (fun s hs => ?_) fun resp hresp => ?_
  · rw [send_apply]
    obtain ⟨h1, h2⟩ := h.multi (((multiRequests requests).drop i).take step)
      (fun r hr => by obtain ⟨m, p, hm, rfl⟩ := hmem r hr; exact hRs m p hm) s.world hs
    exact ⟨h1, rfl, h2⟩
  · obtain ⟨items, h2, ⟨res, h3, h4⟩, h5⟩ := hresp
    have hobj : ∃ kvs, resp = .obj kvs := by cases resp <;> simp [Json.get?] at h2 ⊢
    obtain ⟨kvs, rfl⟩ := hobj
    have h2' : Dict.get? kvs "error_code" = some (.num 0) := h2
    have hres : ∃ kvs', res = .obj kvs' := by cases res <;> simp [Json.get?] at h4 ⊢
    obtain ⟨kvs', rfl⟩ := hres
    have h4' : Dict.get? kvs' "responses" = some (.arr items) := h4
    have hcheck : checkResponse true (.obj kvs) = .ok none := by
      simp only [checkResponse, if_true, h2']
      rw [Codes.C09_protocol]; simp [CodesSpec.expected]
    have hbr : batchResponses (.obj kvs) = .ok items := by simp only [batchResponses, h3, h4']
    refine Tri.bind (Q := fun _ => True) (fun s hs => ?_) fun _ _ => ?_
    · rw [checkBatch_apply, hcheck]
      exact ⟨hs, rfl, fun _ _ => trivial⟩
    · rw [hbr]
      refine Tri.bind (Tri.lift _) fun items' hi => ?_
      cases hi
      refine Tri.foldM _ (fun acc hacc item hitem => ?_) acc hacc
      obtain ⟨r, hr, hmeth, a, ha, hc⟩ := h5 item hitem
      obtain ⟨m, p, hm, rfl⟩ := hmem r hr
      exact processResponse_tells h hm hmeth ha hc acc hacc

theorem queryMissing_tells (h : Tells t Rs I May) {requests : Dict String Json}
    (hRs : ∀ m p, (m, p) ∈ requests → Rs (requestFor m p)) {raises : Bool} (m : String) (p : Json)
    (hm : (m, p) ∈ requests) (acc : Dict String Entry) (hacc : Told May requests acc) :
    Tri I (queryMissing t raises acc (m, p)) (Told May requests) := by
  unfold queryMissing
  split
  · exact Tri.pure hacc
  · refine Tri.bind (send_single_tells h (mkRequest m p) (hRs m p hm)) fun resp ⟨a, ha, hc⟩ => ?_
    refine Tri.bind (Tri.lift _) fun x hx => ?_
    obtain rfl := checkResponse_either hc hx
    rw [resultGet_carries hc]
    exact Tri.pure (hacc.set hm ha)

theorem queryUnbatched_tells (h : Tells t Rs I May) {requests : Dict String Json}
    (hRs : ∀ m p, (m, p) ∈ requests → Rs (requestFor m p)) {raises : Bool} (m : String) (p : Json)
    (hm : (m, p) ∈ requests) (acc : Dict String Entry) (hacc : Told May requests acc) :
    Tri I (queryUnbatched t raises acc (mkRequest m p)) (Told May requests) := by
  unfold queryUnbatched
  refine Tri.bind (send_single_tells h (mkRequest m p) (hRs m p hm)) fun resp ⟨a, ha, hc⟩ => ?_
  refine Tri.bind (Tri.lift _) fun x hx => ?_
  obtain rfl := checkResponse_either hc hx
  refine Tri.bind (Tri.lift _) fun e he => ?_
  have he : e = entryFor a := by
    rw [← resultGet_carries hc]
    unfold resultIndex at he
    unfold resultGet
    split at he
    · cases he; rfl
    · split at he
      · cases he; simp_all
      · cases he
  subst he
  exact Tri.pure (hacc.set hm ha)

/-- One attempt at several requests. -/
theorem executeMultiple_tells (h : Tells t Rs I May) (pager : Pager σ) (requests : Dict String Json)
    (hRs : ∀ m p, (m, p) ∈ requests → Rs (requestFor m p)) (s : St σ) (hs : I s.world) :
    I (executeMultiple t pager requests s).2.world ∧ (executeMultiple t pager requests s).2.batchSize = s.batchSize ∧
    ∀ r, (executeMultiple t pager requests s).1 = .ok r → Told May requests r := by
  by_cases hb : s.batchSize = 1
  · rw [executeMultiple, bind_apply, get_apply]
    simp only [hb, if_true]
    have := Tri.foldM (I := I) (f := queryUnbatched t (requests.length == 1)) (Q := Told May requests) (multiRequests requests)
      (fun acc hacc r hr => by
        obtain ⟨m, p, hm, _, rfl⟩ := mem_multiRequests.mp hr
        exact queryUnbatched_tells h hRs m p hm acc hacc) [] Told.nil s hs
    exact ⟨this.1, this.2.1.trans hb, this.2.2⟩
  · rw [executeMultiple_apply t _ requests s hb]
    exact Tri.bind (Tri.foldM _ (fun acc hacc i _ => sendBatch_tells h hRs s.batchSize i acc hacc) [] Told.nil)
      (fun acc hacc => Tri.foldM requests (fun acc hacc kv hkv => queryMissing_tells h hRs kv.1 kv.2 hkv acc hacc) acc hacc) s hs

/-- One attempt at a query. -/
theorem executeQuery_tells (h : Tells t Rs I May) (requests : Dict String Json) (hRs : ∀ m p, (m, p) ∈ requests → Rs (requestFor m p))
    (s : St σ) (hs : I s.world) :
    I (executeQuery t (.dict requests) s).2.world ∧ (executeQuery t (.dict requests) s).2.batchSize = s.batchSize ∧
    ∀ r, (executeQuery t (.dict requests) s).1 = .ok r → Told May requests r := by
  by_cases hl : requests.length = 1
  · match requests, hl with
    | [(m, p)], _ =>
      have : Tri I (executeQuery t (.dict [(m, p)])) (Told May [(m, p)]) := by
        rw [executeQuery_one]
        refine Tri.bind (Q := fun v => ∃ a, May (requestFor m p) a ∧ entryFor a = .value v) ?_ fun v ⟨a, ha, hv⟩ => ?_
        · unfold executeSingle
          refine Tri.bind (send_single_tells h (mkRequest m p) (hRs m p (.head _))) fun resp ⟨a, ha, hc⟩ => ?_
          refine Tri.bind (Tri.lift _) fun x hx => Tri.pure ⟨a, ha, ?_⟩
          rw [checkResponse_carries_raise hc] at hx
          have h0 : a.1 = 0 := by
            have key : ∀ c : Int, c ≠ 0 → ∃ e, CodesSpec.expected c = .error e := by
              intro c hc0
              unfold CodesSpec.expected
              rw [if_neg hc0]
              repeat' split
              all_goals exact ⟨_, rfl⟩
            by_cases h0 : a.1 = 0
            · exact h0
            · obtain ⟨e, he⟩ := key _ h0
              rw [he] at hx
              cases hx
          unfold entryFor
          rw [if_pos h0, hc.2.2]
        · rw [← hv]
          refine Tri.bind (Q := fun e => e = entryFor a) (fun s hs => ?_) fun e he => ?_
          · rw [completeEntry_unpaged _ m p a (fun v hv => h.unpaged _ a v ha hv) s]
            exact ⟨hs, rfl, fun _ e => by cases e; rfl⟩
          · subst he
            refine Tri.pure ?_
            refine ⟨List.nodup_cons.mpr ⟨nofun, List.nodup_nil⟩, ?_⟩
            intro m' e he
            have : Dict.get? [(m, entryFor a)] m' = some e := he
            by_cases hmm : m = m'
            · subst hmm
              simp [Dict.get?] at this
              exact ⟨p, .head _, a, ha, this.symm⟩
            · simp [Dict.get?, hmm] at this
      exact this s hs
  rw [executeQuery_many t requests hl]
  exact executeMultiple_tells h _ requests hRs s hs

/-- A query. -/
theorem query_tells (h : Tells t Rs I May) (requests : Dict String Json) (hRs : ∀ m p, (m, p) ∈ requests → Rs (requestFor m p)) (rc : Int)
    (s : St σ) (hs : I s.world) :
    I (query t (.dict requests) rc s).2.world ∧ (query t (.dict requests) rc s).2.batchSize = s.batchSize ∧
    ∀ r, (query t (.dict requests) rc s).1 = .ok r → Told May requests r ∧ (s.batchSize ≠ 1 → ∀ m ∈ requests.keys, m ∈ r.keys) := by
  let R : St σ → St σ → Prop := fun a b => I a.world → I b.world ∧ b.batchSize = a.batchSize
  have hrel : Rel R (executeQuery t (.dict requests)) :=
    fun s hs => ⟨(executeQuery_tells h requests hRs s hs).1, (executeQuery_tells h requests hRs s hs).2.1⟩
  have hrefl : ∀ s : St σ, R s s := fun s h => ⟨h, rfl⟩
  have htrans : ∀ a b c : St σ, R a b → R b c → R a c := by
    intro a b c h1 h2 ha
    obtain ⟨k1, k2⟩ := h1 ha
    obtain ⟨k3, k4⟩ := h2 k1
    exact ⟨k3, k4.trans k2⟩
  have hreset : ∀ s : St σ, R s { s with world := (t.reset s.world).2 } := fun s hs => ⟨h.reset _ hs, rfl⟩
  have hq : Rel R (query t (.dict requests) rc) := by
    rw [query_unfold]
    exact Retry.loop_rel hrefl htrans true _ (fun _ => hrel) (fun s => hreset s) (fun s => hrefl s) rc _
  refine ⟨(hq s hs).1, (hq s hs).2, fun r hr => ?_⟩
  obtain ⟨s1, h1, h2⟩ := query_last t _ rc hrefl htrans hrel hreset (s := s) (s' := (query t (.dict requests) rc s).2) (r := r)
    (Prod.ext hr rfl)
  obtain ⟨k1, k2⟩ := h1 hs
  exact ⟨(executeQuery_tells h requests hRs s1 k1).2.2 r (by rw [h2]), fun hb => C06_every_method t requests s1 _ r (by rw [k2]; exact hb) h2⟩

end
end Kasa.Smart

namespace Kasa.EndToEnd
open PyM

section
variable {σ α : Type} {t : Smart.Transport σ} {p : Program α} {uuid : String} {Good : σ → Prop} {state : σ → α}

theorem Faithful.tells (F : Faithful t p uuid Good state) {Rs : Smart.Request → Prop} {ans : α → Smart.Request → SmartSpec.Answer}
    (hr : Reads p uuid Rs ans) (a0 : α) :
    Smart.Tells t (fun r => Rs r ∧ Smart.WireAll JsonText.Proper (.single r)) (fun w => Good w ∧ state w = a0) fun r a => Rs r ∧ a = ans a0 r := by
  constructor
  · rintro r ⟨hR, hw⟩ w ⟨hg, rfl⟩
    obtain ⟨j, res, s', hmsg, h1, h2, h3⟩ := F.step (.single r) hw w hg
    obtain ⟨k1, k2⟩ := hr.single r hR j (state w) hmsg
    rw [h1]
    rcases h3 with ⟨e, rfl, h⟩ | ⟨e, rfl, h⟩ | ⟨rfl, h⟩
    · exact ⟨⟨h2, h⟩, fun _ h => by cases h⟩
    · exact ⟨⟨h2, h.trans k2⟩, fun _ h => by cases h⟩
    · exact ⟨⟨h2, h.trans k2⟩, fun _ h => by cases h; exact ⟨_, ⟨hR, rfl⟩, k1⟩⟩
  · rintro rs hRs w ⟨hg, rfl⟩
    obtain ⟨j, res, s', hmsg, h1, h2, h3⟩ := F.step (.multi rs) (fun r hr => (hRs r hr).2) w hg
    obtain ⟨k2, items, k3, k4, k5⟩ := hr.multi rs (fun r h => (hRs r h).1) j (state w) hmsg
    rw [h1]
    rcases h3 with ⟨e, rfl, h⟩ | ⟨e, rfl, h⟩ | ⟨rfl, h⟩
    · exact ⟨⟨h2, h⟩, fun _ h => by cases h⟩
    · exact ⟨⟨h2, h.trans k2⟩, fun _ h => by cases h⟩
    · refine ⟨⟨h2, h.trans k2⟩, fun _ h => ?_⟩
      cases h
      refine ⟨items, k3, k4, fun item hi => ?_⟩
      obtain ⟨r, hr, hm, hc⟩ := k5 item hi
      exact ⟨r, hr, hm, _, ⟨(hRs r hr).1, rfl⟩, hc⟩
  · rintro w ⟨hg, rfl⟩
    exact F.reset w hg
  · rintro r a v ⟨hR, rfl⟩ hv
    exact hr.unpaged r hR a0 v hv

/-- A query that reads. -/
theorem Faithful.reads (F : Faithful t p uuid Good state) {Rs : Smart.Request → Prop} {ans : α → Smart.Request → SmartSpec.Answer}
    (hr : Reads p uuid Rs ans) {requests : Dict String Json} (hq : ReadQuery Rs requests) (rc : Int) (s : Smart.St σ) (hg : Good s.world) :
    let got := Smart.query t (.dict requests) rc s
    Good got.2.world ∧ state got.2.world = state s.world ∧ got.2.batchSize = s.batchSize ∧
      ∀ r, got.1 = .ok r → Shows (ans (state s.world)) requests r ∧ (s.batchSize ≠ 1 → ∀ m ∈ requests.keys, m ∈ r.keys) := by
  intro got
  obtain ⟨⟨h1, h2⟩, h3, h4⟩ := Smart.query_tells (F.tells hr (state s.world)) requests
    (fun m p hm => ⟨hq.reads m p hm, Smart.mkRequest_wireAll (hq.proper m p hm)⟩) rc s ⟨hg, rfl⟩
  refine ⟨h1, h2, h3, fun r hr => ⟨⟨(h4 r hr).1.1, fun m e he => ?_⟩, (h4 r hr).2⟩⟩
  obtain ⟨q, hm, a, ⟨-, rfl⟩, he⟩ := (h4 r hr).1.2 m e he
  exact ⟨q, hm, he⟩

theorem Faithful.readings (F : Faithful t p uuid Good state) {Rs : Smart.Request → Prop} {ans : α → Smart.Request → SmartSpec.Answer}
    (hr : Reads p uuid Rs ans) (between : List (Dict String Json × Int)) (hb : ∀ b ∈ between, ReadQuery Rs b.1) (s : Smart.St σ)
    (hg : Good s.world) : Good (queries t (readings between) s).world ∧ state (queries t (EndToEnd.readings between) s).world = state s.world := by
  induction between generalizing s with
  | nil => exact ⟨hg, rfl⟩
  | cons b bs ih =>
    obtain ⟨h1, h2, -, -⟩ := F.reads hr (hb b (.head _)) b.2 s hg
    obtain ⟨h3, h4⟩ := ih (fun b h => hb b (.tail _ h)) _ h1
    exact ⟨h3, h4.trans h2⟩

theorem Faithful.setter_good (F : Faithful t p uuid Good state) (s0 : Smart.St σ) (hs0 : Good s0.world) (before : List (Smart.Query × Int))
    (hbefore : ∀ q ∈ before, ProperQuery q.1) (m : String) (q : Json) (hq : JsonText.Proper q) (rc : Int) :
    Good (Smart.query t (.dict [(m, q)]) rc (queries t before s0)).2.world := by
  have h := (F.queries_explains (before ++ [(.dict [(m, q)], rc)]) s0 (by
    intro x hx
    rcases List.mem_append.mp hx with hx | hx
    · exact hbefore x hx
    · cases hx with
      | head =>
        intro m' p' hm
        cases hm with
        | head => exact hq
        | tail _ h => cases h
      | tail _ h => cases h) hs0).1
  unfold queries at h
  rw [List.foldl_append] at h
  exact h

theorem Faithful.readsTruly (F : Faithful t p uuid Good state) (s0 : Smart.St σ) (hs0 : Good s0.world) : ReadsTruly t p uuid state s0 := by
  intro Rs ans hr before hbefore requests hq rc s got
  obtain ⟨-, h2, -, h4⟩ := F.reads hr hq rc s (F.queries_explains before s0 hbefore hs0).1
  exact ⟨h2, h4⟩

theorem Faithful.readsBack (F : Faithful t p uuid Good state) (s0 : Smart.St σ) (hs0 : Good s0.world) : ReadsBack t p uuid state s0 := by
  intro Rs ans hr before hbefore m q hq f v hset between hbetween requests hreq rc rc' s set got r hgot
  have hg : Good set.2.world := F.setter_good s0 hs0 before hbefore m q hq rc
  obtain ⟨h1, h2⟩ := F.readings hr between hbetween set.2 hg
  obtain ⟨-, -, -, h4⟩ := F.reads hr hreq rc' _ h1
  have h5 := (h4 r hgot).1
  rw [h2] at h5
  obtain ⟨k1, k2⟩ := F.setter m q hq hset before hbefore rc s0 hs0
  refine ⟨fun v' hv => ?_, fun e he => ?_⟩
  · have := (k1 v' hv).2
    have h : state set.2.world = f (state s.world) := this
    rw [h] at h5
    exact h5
  · rcases k2 e he with h | h
    · have h : state set.2.world = state s.world := h
      rw [h] at h5
      exact .inl h5
    · have h : state set.2.world = f (state s.world) := h
      rw [h] at h5
      exact .inr h5

/-- An update of a device object. -/
theorem Faithful.update (F : Faithful t p uuid Good state) {Rs : Smart.Request → Prop} {ans : α → Smart.Request → SmartSpec.Answer}
    (hr : Reads p uuid Rs ans) (env : SmartDevice.Env) (at' : Nat → Smart.St σ) (w : SmartDevice.World) (kids : Bool) (u : Rat)
    (hold : w.dev.time = some u) (hid : w.dev.id = none) (hwf : Dict.WF w.dev.mods)
    (hq : ReadQuery Rs (SmartDevice.requestOf false (env.clock w.net.ticks) w.dev))
    (hx : Uninterrupted env w.net.asked.length (SmartDevice.requestOf false (env.clock w.net.ticks) w.dev)) (rc : Int)
    (hb : Behind t env rc at' (SmartDevice.update env true kids w).2.net.asked)
    (hg : Good (at' w.net.asked.length).world) (hbs : (at' w.net.asked.length).batchSize ≠ 1) :
    (∀ k q, (k, q) ∈ SmartDevice.requestOf false (env.clock w.net.ticks) w.dev →
      Dict.get? (SmartDevice.update env true kids w).2.dev.last k =
        some (SmartSpec.entryFor (ans (state (at' w.net.asked.length).world) (SmartSpec.requestFor k q))) ∨
      Dict.get? (SmartDevice.update env true kids w).2.dev.last k = some (.error (-100001))) ∧
    ∀ k, k ∉ Dict.keys (SmartDevice.requestOf false (env.clock w.net.ticks) w.dev) →
      Dict.get? (SmartDevice.update env true kids w).2.dev.last k = Dict.get? w.dev.last k := by
  generalize hreq : SmartDevice.requestOf false (env.clock w.net.ticks) w.dev = req at hq hx
  -- what a result shows of a method
  have shown : ∀ (reqs : Dict String Json) (a : α) (r : Dict String Smart.Entry), Dict.WF reqs → Shows (ans a) reqs r →
      (∀ m ∈ reqs.keys, m ∈ r.keys) → ∀ k q, (k, q) ∈ reqs → Dict.get? r k = some (SmartSpec.entryFor (ans a (SmartSpec.requestFor k q))) := by
    intro reqs a r hw hs hk k q hm
    obtain ⟨e, he⟩ : ∃ e, Dict.get? r k = some e := by
      cases h : Dict.get? r k with
      | none => exact absurd (hk k (List.mem_map.mpr ⟨(k, q), hm, rfl⟩)) (Dict.get?_eq_none_iff.mp h)
      | some e => exact ⟨e, rfl⟩
    obtain ⟨q', hm', rfl⟩ := hs.2 k e he
    have : q' = q := by
      have h1 := Dict.get?_of_mem hw hm
      have h2 := Dict.get?_of_mem hw hm'
      rw [h1] at h2
      exact (Option.some.inj h2).symm
    rw [he, this]
  obtain ⟨hg1, hst1, hbs1, hok1⟩ := F.reads hr hq rc (at' w.net.asked.length) hg
  cases hans : env.answer w.net.asked.length none req with
  | ok resp =>
    have hres := hok1 resp ((hb.answer _ _).symm.trans hans)
    have hc := SmartDevice.C33_combined env w kids u hold hwf resp hres.1.1 (by rw [hid, hreq]; exact hans)
    constructor
    · intro k q hm
      rw [hc k, shown req _ resp hq.wf hres.1 (hres.2 hbs) k q hm]
      exact .inl rfl
    · intro k hk
      rw [hc k]
      cases h : Dict.get? resp k with
      | none => rfl
      | some e =>
        obtain ⟨q, hm, -⟩ := hres.1.2 k e h
        exact absurd (List.mem_map.mpr ⟨(k, q), hm, rfl⟩) hk
  | error e =>
    obtain ⟨⟨more, hasked⟩, hyes, hno⟩ := SmartDevice.C33_fallback env w kids u hold hwf req hreq.symm e (by rw [hid]; exact hans)
      (hx _ hans).1 (fun i p hp e' he => (hx _ hans).2 i p hp e' (by rw [hid] at he; exact he))
    refine ⟨fun k q hm => ?_, hno⟩
    rw [hid] at hasked
    have one : ∀ p ∈ req, ReadQuery Rs [p] := by
      intro p hp
      refine ⟨List.nodup_cons.mpr ⟨nofun, List.nodup_nil⟩, ?_, ?_⟩
      · intro m q hm; cases hm with
        | head => exact hq.proper _ _ hp
        | tail _ h => cases h
      · intro m q hm; cases hm with
        | head => exact hq.reads _ _ hp
        | tail _ h => cases h
    have hn0 : at' (w.net.asked.length + 1) = (Smart.query t (.dict req) rc (at' w.net.asked.length)).2 := by
      refine hb.next _ _ ?_
      rw [hasked]
      simp
    have key : ∀ i, i ≤ req.length → Good (at' (w.net.asked.length + 1 + i)).world ∧
        state (at' (w.net.asked.length + 1 + i)).world = state (at' w.net.asked.length).world ∧
        (at' (w.net.asked.length + 1 + i)).batchSize ≠ 1 := by
      intro i
      induction i with
      | zero =>
        intro _
        rw [Nat.add_zero, hn0]
        exact ⟨hg1, hst1, by rw [hbs1]; exact hbs⟩
      | succ i ih =>
        intro hi
        obtain ⟨g, st, bs⟩ := ih (by omega)
        have hp : req[i]? = some req[i] := List.getElem?_eq_getElem (by omega)
        have : at' (w.net.asked.length + 1 + i + 1) = (Smart.query t (.dict [req[i]]) rc (at' (w.net.asked.length + 1 + i))).2 := by
          refine hb.next _ _ ?_
          rw [hasked]
          have hl : w.net.asked.length + 1 + i - w.net.asked.length = i + 1 := by omega
          rw [List.getElem?_append_left (by simp; omega), List.getElem?_append_right (by omega), hl, List.getElem?_cons_succ,
            List.getElem?_map, hp]
          rfl
        rw [← Nat.add_assoc, this]
        obtain ⟨a1, a2, a3, -⟩ := F.reads hr (one req[i] (List.getElem_mem _)) rc (at' (w.net.asked.length + 1 + i)) g
        exact ⟨a1, a2.trans st, by rw [a3]; exact bs⟩
    obtain ⟨i, hi⟩ := List.getElem?_of_mem hm
    have hil : i < req.length := (List.getElem?_eq_some_iff.mp hi).1
    obtain ⟨g, st, bs⟩ := key i (Nat.le_of_lt hil)
    rw [hyes i (k, q) hi, hid]
    unfold SmartDevice.outcome
    cases ho : env.answer (w.net.asked.length + 1 + i) none [(k, q)] with
    | error e => exact .inr rfl
    | ok r =>
      obtain ⟨-, -, -, a4⟩ := F.reads hr (one (k, q) hm) rc _ g
      have hr1 := a4 r ((hb.answer _ _).symm.trans ho)
      rw [st] at hr1
      simp only
      rw [shown [(k, q)] _ r (one (k, q) hm).wf hr1.1 (hr1.2 bs) k q (.head _)]
      exact .inl rfl

theorem Faithful.updateShows (F : Faithful t p uuid Good state) (s0 : Smart.St σ) (hs0 : Good s0.world) : UpdateShows t p uuid state s0 := by
  intro Rs ans hr before hbefore m q hq f v hset rc rc' s set v' hv env at' w kids u hold hid hwf hread hx after hb hat hbs
  have hg : Good set.2.world := F.setter_good s0 hs0 before hbefore m q hq rc
  have hstate : state set.2.world = f (state s.world) := ((F.setter m q hq hset before hbefore rc s0 hs0).1 v' hv).2
  have := F.update hr env at' w kids u hold hid hwf hread hx rc' hb (by rw [hat]; exact hg) (by rw [hat]; exact hbs)
  rw [hat, hstate] at this
  exact this

end
end Kasa.EndToEnd
