import Verif.Lemmas.ReadBack
import Verif.Lemmas.CamFaithful
import Verif.Props.SmartCamProtocol
import Verif.Props.Camera
import Verif.Props.CamUpdate
import Verif.Spec.CamNetwork
/-!
# Cameras that are set and read over an unreliable network
-/

namespace Kasa.CamNetwork
open PyM
open EndToEnd (Program Reads ReadQuery Shows readings ProperQuery Faithful Uninterrupted)
open Smart (Request Entry)
open SmartSpec (Answer requestFor)
open CamEndToEnd (Plain Sets queries)

section
variable {σ : Type} {t : Smart.Transport σ} {Rs : Request → Prop} {I : σ → Prop} {May : Request → Answer → Prop}

/-- One attempt at a query to a camera. -/
theorem executeQuery_tells (h : Smart.Tells t Rs I May) (requests : Dict String Json)
    (hRs : ∀ m p, (m, p) ∈ requests → Rs (requestFor m p)) (hraw : ∀ m ∈ requests.keys, m ∉ SmartCam.rawMethods)
    (s : Smart.St σ) (hs : I s.world) :
    I (SmartCam.executeQuery t (.dict requests) s).2.world ∧ (SmartCam.executeQuery t (.dict requests) s).2.batchSize = s.batchSize ∧
    ∀ r, (SmartCam.executeQuery t (.dict requests) s).1 = .ok r → Smart.Told May requests r := by
  match requests, hRs, hraw with
  | [], _, _ => exact ⟨hs, rfl, fun _ h => by cases h⟩
  | [(m, p)], hRs, hraw =>
    have hm : m ∉ SmartCam.rawMethods := hraw m (by simp)
    have : SmartCam.executeQuery t (.dict [(m, p)]) = Smart.executeMultiple t (some (SmartCam.fetchPage t)) [(m, p)] := by
      simp only [SmartCam.executeQuery, hm, if_false]
    rw [this]
    exact Smart.executeMultiple_tells h _ _ hRs s hs
  | _ :: _ :: _, hRs, _ => exact Smart.executeMultiple_tells h _ _ hRs s hs

/-- A query to a camera. -/
theorem query_tells (h : Smart.Tells t Rs I May) (requests : Dict String Json) (hRs : ∀ m p, (m, p) ∈ requests → Rs (requestFor m p))
    (hraw : ∀ m ∈ requests.keys, m ∉ SmartCam.rawMethods) (rc : Int) (s : Smart.St σ) (hs : I s.world) :
    I (SmartCam.query t (.dict requests) rc s).2.world ∧ (SmartCam.query t (.dict requests) rc s).2.batchSize = s.batchSize ∧
    ∀ r, (SmartCam.query t (.dict requests) rc s).1 = .ok r →
      Smart.Told May requests r ∧ (s.batchSize ≠ 1 → ∀ m ∈ requests.keys, m ∈ r.keys) := by
  let R : Smart.St σ → Smart.St σ → Prop := fun a b => I a.world → I b.world ∧ b.batchSize = a.batchSize
  have hrel : Rel R (SmartCam.executeQuery t (.dict requests)) :=
    fun s hs => ⟨(executeQuery_tells h requests hRs hraw s hs).1, (executeQuery_tells h requests hRs hraw s hs).2.1⟩
  have hrefl : ∀ s : Smart.St σ, R s s := fun s h => ⟨h, rfl⟩
  have htrans : ∀ a b c : Smart.St σ, R a b → R b c → R a c := by
    intro a b c h1 h2 ha
    obtain ⟨k1, k2⟩ := h1 ha
    obtain ⟨k3, k4⟩ := h2 k1
    exact ⟨k3, k4.trans k2⟩
  have hreset : ∀ s : Smart.St σ, R s { s with world := (t.reset s.world).2 } := fun s hs => ⟨h.reset _ hs, rfl⟩
  have hq : Rel R (SmartCam.query t (.dict requests) rc) := Smart.retried_rel t _ rc hrefl htrans hrel hreset
  refine ⟨(hq s hs).1, (hq s hs).2, fun r hr => ?_⟩
  obtain ⟨s1, h1, h2⟩ := Smart.retried_last t _ rc hrefl htrans hrel hreset (s := s) (s' := (SmartCam.query t (.dict requests) rc s).2) (r := r)
    (Prod.ext hr rfl)
  obtain ⟨k1, k2⟩ := h1 hs
  exact ⟨(executeQuery_tells h requests hRs hraw s1 k1).2.2 r (by rw [h2]),
    fun hb => SmartCam.C06_cam_every_method t requests s1 _ r (by rw [k2]; exact hb) hraw h2⟩

end

section
variable {σ α : Type} {t : Smart.Transport σ} {p : Program α} {uuid : String} {Good : σ → Prop} {state : σ → α}

/-- A query that reads from a camera. -/
theorem reads (F : Faithful t p uuid Good state) {Rs : Request → Prop} {ans : α → Request → Answer}
    (hr : Reads p uuid Rs ans) {requests : Dict String Json} (hq : CamReadQuery Rs requests) (rc : Int) (s : Smart.St σ) (hg : Good s.world) :
    let got := SmartCam.query t (.dict requests) rc s
    Good got.2.world ∧ state got.2.world = state s.world ∧ got.2.batchSize = s.batchSize ∧
      ∀ r, got.1 = .ok r → Shows (ans (state s.world)) requests r ∧ (s.batchSize ≠ 1 → ∀ m ∈ requests.keys, m ∈ r.keys) := by
  intro got
  obtain ⟨⟨h1, h2⟩, h3, h4⟩ := query_tells (F.tells hr (state s.world)) requests
    (fun m p hm => ⟨hq.reads m p hm, Smart.mkRequest_wireAll (hq.proper m p hm)⟩) hq.plain rc s ⟨hg, rfl⟩
  refine ⟨h1, h2, h3, fun r hr => ⟨⟨(h4 r hr).1.1, fun m e he => ?_⟩, (h4 r hr).2⟩⟩
  obtain ⟨q, hm, a, ⟨-, rfl⟩, he⟩ := (h4 r hr).1.2 m e he
  exact ⟨q, hm, he⟩

theorem reads_many (F : Faithful t p uuid Good state) {Rs : Request → Prop} {ans : α → Request → Answer}
    (hr : Reads p uuid Rs ans) (between : List (Dict String Json × Int)) (hb : ∀ b ∈ between, CamReadQuery Rs b.1) (s : Smart.St σ)
    (hg : Good s.world) : Good (queries t (readings between) s).world ∧ state (queries t (readings between) s).world = state s.world := by
  induction between generalizing s with
  | nil => exact ⟨hg, rfl⟩
  | cons b bs ih =>
    obtain ⟨h1, h2, -, -⟩ := reads F hr (hb b (.head _)) b.2 s hg
    obtain ⟨h3, h4⟩ := ih (fun b h => hb b (.tail _ h)) _ h1
    exact ⟨h3, h4.trans h2⟩

theorem setter_good (F : Faithful t p uuid Good state) (s0 : Smart.St σ) (hs0 : Good s0.world) (m : String) (q : Json)
    (hq : JsonText.Proper q) (rc : Int) : Good (SmartCam.query t (.dict [(m, q)]) rc s0).2.world :=
  (CamEndToEnd.queries_explains F [(.dict [(m, q)], rc)] s0 (by
    intro x hx
    cases hx with
    | head =>
      intro m' p' hm
      cases hm with
      | head => exact hq
      | tail _ h => cases h
    | tail _ h => cases h) hs0).1

theorem camReadsTruly (F : Faithful t p uuid Good state) (s0 : Smart.St σ) (hs0 : Good s0.world) : CamReadsTruly t p uuid state s0 := by
  intro Rs ans hr before hbefore requests hq rc s got
  obtain ⟨-, h2, -, h4⟩ := reads F hr hq rc s (CamEndToEnd.queries_explains F before s0 hbefore hs0).1
  exact ⟨h2, h4⟩

theorem camReadsBack (F : Faithful t p uuid Good state) (s0 : Smart.St σ) (hs0 : Good s0.world) : CamReadsBack t p uuid state s0 := by
  intro Rs ans hr before hbefore m q hm hq f v hset between hbetween requests hreq rc rc' s set got r hgot
  have hg : Good set.2.world := setter_good F _ (CamEndToEnd.queries_explains F before s0 hbefore hs0).1 m q hq rc
  obtain ⟨h1, h2⟩ := reads_many F hr between hbetween set.2 hg
  obtain ⟨-, -, -, h4⟩ := reads F hr hreq rc' _ h1
  have h5 := (h4 r hgot).1
  rw [h2] at h5
  obtain ⟨k1, k2⟩ := CamEndToEnd.setter F m hm q hq hset before hbefore rc s0 hs0
  refine ⟨fun v' hv => ?_, fun e he => ?_⟩
  · have h : state set.2.world = f (state s.world) := (k1 v' hv).2
    rw [h] at h5
    exact h5
  · rcases k2 e he with h | h
    · have h : state set.2.world = state s.world := h
      rw [h] at h5
      exact .inl h5
    · have h : state set.2.world = f (state s.world) := h
      rw [h] at h5
      exact .inr h5

/-- An update of a camera object. -/
theorem update_shows (F : Faithful t p uuid Good state) {Rs : Request → Prop} {ans : α → Smart.Request → SmartSpec.Answer}
    (hr : Reads p uuid Rs ans) (env : CamDevice.CamEnv) (at' : Nat → Smart.St σ) (w : SmartDevice.World) (kids : Bool) (u : Rat)
    (hold : w.dev.time = some u) (hid : w.dev.id = none) (hwf : Dict.WF w.dev.mods)
    (hq : CamReadQuery Rs (SmartDevice.requestOf false (env.base.clock w.net.ticks) w.dev))
    (hx : Uninterrupted env.base w.net.asked.length (SmartDevice.requestOf false (env.base.clock w.net.ticks) w.dev)) (rc : Int)
    (hb : CamBehind t env.base rc at' (CamDevice.update env true kids w).2.net.asked)
    (hg : Good (at' w.net.asked.length).world) (hbs : (at' w.net.asked.length).batchSize ≠ 1) :
    (∀ k q, (k, q) ∈ SmartDevice.requestOf false (env.base.clock w.net.ticks) w.dev →
      Dict.get? (CamDevice.update env true kids w).2.dev.last k =
        some (SmartSpec.entryFor (ans (state (at' w.net.asked.length).world) (SmartSpec.requestFor k q))) ∨
      Dict.get? (CamDevice.update env true kids w).2.dev.last k = some (.error (-100001))) ∧
    ∀ k, k ∉ Dict.keys (SmartDevice.requestOf false (env.base.clock w.net.ticks) w.dev) →
      Dict.get? (CamDevice.update env true kids w).2.dev.last k = Dict.get? w.dev.last k := by
  generalize hreq : SmartDevice.requestOf false (env.base.clock w.net.ticks) w.dev = req at hq hx
  -- what a result shows of a method
  have shown : ∀ (reqs : Dict String Json) (a : α) (r : Dict String Smart.Entry), Dict.WF reqs → Shows (ans a) reqs r →
      (∀ m ∈ reqs.keys, m ∈ r.keys) → ∀ k q, (k, q) ∈ reqs → Dict.get? r k = some (SmartSpec.entryFor (ans a (SmartSpec.requestFor k q))) := by
    intro reqs a r hw hs hk k q hm
    obtain ⟨e, he⟩ : ∃ e, Dict.get? r k = some e := by
      cases h : Dict.get? r k with
      | none => exact absurd (hk k (List.mem_map.mpr ⟨(k, q), hm, rfl⟩)) (Dict.get?_eq_none_iff.mp h)
      | some e => exact ⟨e, rfl⟩
    obtain ⟨q', hm', rfl⟩ := hs.2 k e he
    have : q' = q := by
      have h1 := Dict.get?_of_mem hw hm
      have h2 := Dict.get?_of_mem hw hm'
      rw [h1] at h2
      exact (Option.some.inj h2).symm
    rw [he, this]
  obtain ⟨hg1, hst1, hbs1, hok1⟩ := reads F hr hq rc (at' w.net.asked.length) hg
  cases hans : env.base.answer w.net.asked.length none req with
  | ok resp =>
    have hres := hok1 resp ((hb.answer _ _).symm.trans hans)
    have hc := CamDevice.C33_cam_combined env w kids u hold hwf resp hres.1.1 (by rw [hid, hreq]; exact hans)
    constructor
    · intro k q hm
      rw [hc k, shown req _ resp hq.wf hres.1 (hres.2 hbs) k q hm]
      exact .inl rfl
    · intro k hk
      rw [hc k]
      cases h : Dict.get? resp k with
      | none => rfl
      | some e =>
        obtain ⟨q, hm, -⟩ := hres.1.2 k e h
        exact absurd (List.mem_map.mpr ⟨(k, q), hm, rfl⟩) hk
  | error e =>
    obtain ⟨⟨more, hasked⟩, hyes, hno⟩ := CamDevice.C33_cam_fallback env w kids u hold hwf req hreq.symm e (by rw [hid]; exact hans)
      (hx _ hans).1 (fun i p hp e' he => (hx _ hans).2 i p hp e' (by rw [hid] at he; exact he))
    refine ⟨fun k q hm => ?_, hno⟩
    rw [hid] at hasked
    have one : ∀ p ∈ req, CamReadQuery Rs [p] := by
      intro p hp
      refine ⟨⟨List.nodup_cons.mpr ⟨nofun, List.nodup_nil⟩, ?_, ?_⟩, ?_⟩
      · intro m q hm; cases hm with
        | head => exact hq.proper _ _ hp
        | tail _ h => cases h
      · intro m q hm; cases hm with
        | head => exact hq.reads _ _ hp
        | tail _ h => cases h
      · intro m hm; cases hm with
        | head => exact hq.plain _ (List.mem_map.mpr ⟨p, hp, rfl⟩)
        | tail _ h => cases h
    have hn0 : at' (w.net.asked.length + 1) = (SmartCam.query t (.dict req) rc (at' w.net.asked.length)).2 := by
      refine hb.next _ _ ?_
      rw [hasked]
      simp
    have key : ∀ i, i ≤ req.length → Good (at' (w.net.asked.length + 1 + i)).world ∧
        state (at' (w.net.asked.length + 1 + i)).world = state (at' w.net.asked.length).world ∧
        (at' (w.net.asked.length + 1 + i)).batchSize ≠ 1 := by
      intro i
      induction i with
      | zero =>
        intro _
        rw [Nat.add_zero, hn0]
        exact ⟨hg1, hst1, by rw [hbs1]; exact hbs⟩
      | succ i ih =>
        intro hi
        obtain ⟨g, st, bs⟩ := ih (by omega)
        have hp : req[i]? = some req[i] := List.getElem?_eq_getElem (by omega)
        have : at' (w.net.asked.length + 1 + i + 1) = (SmartCam.query t (.dict [req[i]]) rc (at' (w.net.asked.length + 1 + i))).2 := by
          refine hb.next _ _ ?_
          rw [hasked]
          have hl : w.net.asked.length + 1 + i - w.net.asked.length = i + 1 := by omega
          rw [List.getElem?_append_left (by simp; omega), List.getElem?_append_right (by omega), hl, List.getElem?_cons_succ,
            List.getElem?_map, hp]
          rfl
        rw [← Nat.add_assoc, this]
        obtain ⟨a1, a2, a3, -⟩ := reads F hr (one req[i] (List.getElem_mem _)) rc (at' (w.net.asked.length + 1 + i)) g
        exact ⟨a1, a2.trans st, by rw [a3]; exact bs⟩
    obtain ⟨i, hi⟩ := List.getElem?_of_mem hm
    have hil : i < req.length := (List.getElem?_eq_some_iff.mp hi).1
    obtain ⟨g, st, bs⟩ := key i (Nat.le_of_lt hil)
    rw [hyes i (k, q) hi, hid]
    unfold SmartDevice.outcome
    cases ho : env.base.answer (w.net.asked.length + 1 + i) none [(k, q)] with
    | error e => exact .inr rfl
    | ok r =>
      obtain ⟨-, -, -, a4⟩ := reads F hr (one (k, q) hm) rc _ g
      have hr1 := a4 r ((hb.answer _ _).symm.trans ho)
      rw [st] at hr1
      simp only
      rw [shown [(k, q)] _ r (one (k, q) hm).wf hr1.1 (hr1.2 bs) k q (.head _)]
      exact .inl rfl

theorem camUpdateShows (F : Faithful t p uuid Good state) (s0 : Smart.St σ) (hs0 : Good s0.world) : CamUpdateShows t p uuid state s0 := by
  intro Rs ans hr before hbefore m q hm hq f v hset rc rc' s set v' hv env at' w kids u hold hid hwf hread hx after hb hat hbs
  have hg : Good set.2.world := setter_good F _ (CamEndToEnd.queries_explains F before s0 hbefore hs0).1 m q hq rc
  have hstate : state set.2.world = f (state s.world) := ((CamEndToEnd.setter F m hm q hq hset before hbefore rc s0 hs0).1 v' hv).2
  have := update_shows F hr env at' w kids u hold hid hwf hread hx rc' hb (by rw [hat]; exact hg) (by rw [hat]; exact hbs)
  rw [hat, hstate] at this
  exact this

end

/-! ## Switches -/

section
open Camera CameraSpec

theorem getter_reads (w : Switch) : (getter w, home w) ∈ readers := by cases w <;> decide
theorem setter_writes (w : Switch) : ((setter w).1, home w) ∈ writers := by cases w <;> decide

theorem setEnabled_eq (w : Switch) (on : Bool) : setEnabled w on =
    .obj [((setter w).1, .obj [((home w).1, .obj [((home w).2, .obj [("enabled", onOff on)])])])] := by cases w <;> rfl

theorem query_eq (w : Switch) : query w = .obj [(getter w, .obj [((home w).1, .obj [("name", .str (home w).2)])])] := by cases w <;> rfl

theorem setter_plain (w : Switch) : Plain (setter w).1 := by cases w <;> (unfold Plain; decide)

theorem proper_setting (w : Switch) (on : Bool) : JsonText.Proper (.obj [((home w).1, .obj [((home w).2, .obj [("enabled", onOff on)])])]) := by
  simp [JsonText.Proper, JsonText.ProperKvs, Dict.WF, Dict.keys, onOff]

/-- What an operation on a camera does: nothing, or flipping one of its switches. -/
theorem send_cases (have_ : List Switch) (op : Op) :
    (send have_ op = none ∧ ∀ P : Panel, P.apply have_ op = P) ∨
    ∃ w on, w ∈ have_ ∧ send have_ op = some (setEnabled w on) ∧ ∀ P : Panel, ∀ x, P.apply have_ op x = if x = w then on else P x := by
  cases op with
  | flip w on =>
    by_cases hw : w ∈ have_
    · exact .inr ⟨w, on, hw, by simp only [send, hw, if_true], fun P x => by simp only [Panel.apply, hw, and_true]⟩
    · exact .inl ⟨by simp only [send, hw, if_false], fun P => by funext x; simp only [Panel.apply, hw, and_false, if_false]⟩
  | power on =>
    by_cases hw : Switch.lensMask ∈ have_
    · exact .inr ⟨.lensMask, !on, hw, by simp only [send, setState, moduleSetState, hw, decide_true, if_true],
        fun P x => by simp only [Panel.apply, hw, and_true]⟩
    · exact .inl ⟨by simp only [send, setState, moduleSetState, hw, decide_false, Bool.false_eq_true, if_false],
        fun P => by funext x; simp only [Panel.apply, hw, and_false, if_false]⟩

variable {σ α : Type} {t : Smart.Transport σ} {p : Program α} {uuid : String} {Good : σ → Prop} {state : σ → α}

/-- One operation. -/
theorem perform_step (F : Faithful t p uuid Good state) {Rs : Request → Prop} {ans : α → Request → Answer} {have_ : List Switch}
    {store : α → Store} (hc : IsCamera p uuid Rs ans have_ store) (op : Op) (s : Smart.St σ) (hg : Good s.world) (P : Panel)
    (hP : PanelOf have_ (store (state s.world)) P) :
    let r := perform t (send have_ op) s
    Good r.2.world ∧ ((∀ v, r.1 = .ok v → PanelOf have_ (store (state r.2.world)) (P.apply have_ op)) ∧
      ∀ e, r.1 = .error e → PanelOf have_ (store (state r.2.world)) P ∨ PanelOf have_ (store (state r.2.world)) (P.apply have_ op)) := by
  rcases send_cases have_ op with ⟨h1, h2⟩ | ⟨w, on, hw, h1, h2⟩
  · rw [h1, h2 P]
    exact ⟨hg, fun _ _ => hP, fun _ h => by cases h⟩
  · rw [h1, setEnabled_eq]
    obtain ⟨f, v, hset, hf⟩ := hc.stores w hw _ (setter_writes w) on
    have moved : PanelOf have_ (store (f (state s.world))) (P.apply have_ op) := by
      intro x hx
      rw [hf _ x hx, h2 P x]
      by_cases hxw : x = w
      · rw [if_pos hxw, if_pos hxw]
      · rw [if_neg hxw, if_neg hxw]; exact hP x hx
    obtain ⟨k1, k2⟩ := CamEndToEnd.setter F _ (setter_plain w) _ (proper_setting w on) hset [] (fun _ h => nomatch h) 3 s hg
    have hnil : queries t [] s = s := rfl
    rw [hnil] at k1 k2
    refine ⟨setter_good F s hg _ _ (proper_setting w on) 3, fun v' hv => ?_, fun e he => ?_⟩
    · have := (k1 v' hv).2
      simp only [perform]
      rw [this]
      exact moved
    · simp only [perform] at he ⊢
      rcases k2 e he with h | h
      · rw [h]; exact .inl hP
      · rw [h]; exact .inr moved

theorem run_steps (F : Faithful t p uuid Good state) {Rs : Request → Prop} {ans : α → Request → Answer} {have_ : List Switch}
    {store : α → Store} (hc : IsCamera p uuid Rs ans have_ store) (steps : List Step)
    (hsteps : ∀ requests rc, .read requests rc ∈ steps → CamReadQuery Rs requests) (s : Smart.St σ) (hg : Good s.world) (P : Panel)
    (hP : PanelOf have_ (store (state s.world)) P) :
    Good (run t have_ steps s).2.world ∧
      ∃ Q, Explains have_ P (run t have_ steps s).1 Q ∧ PanelOf have_ (store (state (run t have_ steps s).2.world)) Q := by
  induction steps generalizing s P with
  | nil => exact ⟨hg, P, .nil P, hP⟩
  | cons step steps ih =>
    have hrest : ∀ requests rc, .read requests rc ∈ steps → CamReadQuery Rs requests := fun q rc h => hsteps q rc (.tail _ h)
    cases step with
    | read requests rc =>
      obtain ⟨h1, h2, -, -⟩ := reads F hc.reads (hsteps requests rc (.head _)) rc s hg
      simp only [run]
      exact ih hrest _ h1 P (by rw [h2]; exact hP)
    | set op =>
      obtain ⟨h1, h2, h3⟩ := perform_step F hc op s hg P hP
      simp only [run]
      cases hout : (perform t (send have_ op) s).1 with
      | ok v =>
        obtain ⟨h4, Q, h5, h6⟩ := ih hrest _ h1 _ (h2 v hout)
        exact ⟨h4, Q, .returned h5, h6⟩
      | error e =>
        rcases h3 e hout with h | h
        · obtain ⟨h4, Q, h5, h6⟩ := ih hrest _ h1 _ h
          exact ⟨h4, Q, .failed h5, h6⟩
        · obtain ⟨h4, Q, h5, h6⟩ := ih hrest _ h1 _ h
          exact ⟨h4, Q, .unanswered h5, h6⟩

/-- What the module of a switch shows of an answer with its section. -/
theorem enabled_shows (w : Switch) (r : List (String × Entry)) (fields : Dict String Json) (on : Bool)
    (hr : Dict.get? r (getter w) = some (.value (.obj [((home w).1, .obj [((home w).2, .obj fields)])])))
    (hf : Dict.get? fields "enabled" = some (onOff on)) : enabled w r = .ok on := by
  have hd : SmartModule.camData (getter w) (moduleName w) [getter w] r = .ok (.bare (.obj [((home w).2, .obj fields)])) := by
    unfold SmartModule.camData
    rw [hr]
    cases w <;> rfl
  have hi : Ops.item (.obj [((home w).2, .obj fields)]) (readSection w) = .ok (.obj fields) := by cases w <;> rfl
  have he : Ops.item (.obj fields) "enabled" = .ok (onOff on) := by simp only [Ops.item, hf]
  unfold enabled
  rw [hd]
  simp only [bind, Except.bind, hi, he]
  cases on <;> rfl

theorem cameraShows (F : Faithful t p uuid Good state) (s0 : Smart.St σ) (hs0 : Good s0.world) : CameraShows t p uuid state s0 := by
  intro Rs ans have_ store hc P0 hP0 steps hsteps after
  obtain ⟨hg, P, h1, h2⟩ := run_steps F hc steps hsteps s0 hs0 P0 hP0
  refine ⟨P, h1, fun requests rc r hq hasks hr hb => ?_⟩
  obtain ⟨-, -, -, h3⟩ := reads F hc.reads hq rc _ hg
  obtain ⟨h4, h5⟩ := h3 r hr
  have shown : ∀ w ∈ have_, enabled w r = .ok (P w) := by
    intro w hw
    obtain ⟨kvs, hk, hin⟩ := hasks w hw
    rw [query_eq] at hk
    cases hk
    have hm := hin _ (.head _)
    obtain ⟨e, he⟩ : ∃ e, Dict.get? r (getter w) = some e := by
      cases h : Dict.get? r (getter w) with
      | none => exact absurd (h5 hb (getter w) (List.mem_map.mpr ⟨_, hm, rfl⟩)) (Dict.get?_eq_none_iff.mp h)
      | some e => exact ⟨e, rfl⟩
    obtain ⟨q', hm', rfl⟩ := h4.2 _ e he
    have hq' : q' = .obj [((home w).1, .obj [("name", .str (home w).2)])] := by
      have a1 := Dict.get?_of_mem hq.wf hm
      have a2 := Dict.get?_of_mem hq.wf hm'
      rw [a1] at a2
      exact (Option.some.inj a2).symm
    rw [hq', hc.report w hw _ (getter_reads w)] at he
    exact enabled_shows w r _ (P w) he (h2 w hw)
  refine ⟨shown, ?_⟩
  unfold isOn moduleIsOn
  by_cases hw : Switch.lensMask ∈ have_
  · simp only [hw, decide_true, if_true]
    rw [shown _ hw]
    rfl
  · simp only [hw, decide_false, Bool.false_eq_true, if_false]

end
end Kasa.CamNetwork
