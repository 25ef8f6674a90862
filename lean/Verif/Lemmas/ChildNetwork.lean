import Verif.Spec.ChildNetwork
import Verif.Lemmas.ReadBack
import Verif.Props.ChildProtocol
import Verif.Props.SmartDevice
/-!
# Children reached through their device
-/

namespace Kasa.EndToEnd
open PyM

section
variable {σ α : Type} {t : Smart.Transport σ} {p : Program α} {uuid : String} {Good : σ → Prop} {state : σ → α}

theorem expected_error {c : Int} (hc : c ≠ 0) : ∃ e, CodesSpec.expected c = .error e := by
  unfold CodesSpec.expected
  rw [if_neg hc]
  repeat' split
  all_goals exact ⟨_, rfl⟩

/-- A query for one method, where the states of the device are related by `R`. -/
theorem Faithful.one (F : Faithful t p uuid Good state) (m : String) (q : Json) (hq : JsonText.Proper q) (R : α → α → Prop) (hrefl : ∀ a, R a a)
    (htrans : ∀ a b c, R a b → R b c → R a c)
    (hrun : ∀ j a, Message uuid (.single (Smart.mkRequest m q)) j → R a (p.run j a).2)
    (hans : ∀ j a, Message uuid (.single (Smart.mkRequest m q)) j →
      (∃ v, SmartSpec.Carries (p.run j a).1 (0, some v) ∧ v.get? "start_index" = none) ∨ ∃ c x, c ≠ 0 ∧ SmartSpec.Carries (p.run j a).1 (c, x))
    (rc : Int) (s : Smart.St σ) (hg : Good s.world) :
    let out := Smart.query t (.dict [(m, q)]) rc s
    Good out.2.world ∧ R (state s.world) (state out.2.world) ∧ ∀ r, out.1 = .ok r → ∃ a j v, R (state s.world) a ∧
      Message uuid (.single (Smart.mkRequest m q)) j ∧ SmartSpec.Carries (p.run j a).1 (0, some v) ∧ r = [(m, .value v)] ∧
      state out.2.world = (p.run j a).2 := by
  intro out
  -- one attempt
  have hatt : ∀ s : Smart.St σ, Good s.world → Good (Smart.executeQuery t (.dict [(m, q)]) s).2.world ∧
      R (state s.world) (state (Smart.executeQuery t (.dict [(m, q)]) s).2.world) ∧
      ∀ r, (Smart.executeQuery t (.dict [(m, q)]) s).1 = .ok r → ∃ j v, Message uuid (.single (Smart.mkRequest m q)) j ∧
        SmartSpec.Carries (p.run j (state s.world)).1 (0, some v) ∧ r = [(m, .value v)] ∧
        state (Smart.executeQuery t (.dict [(m, q)]) s).2.world = (p.run j (state s.world)).2 := by
    intro s hg
    have hw : Smart.WireAll JsonText.Proper (.single (Smart.mkRequest m q)) := Smart.mkRequest_wireAll hq
    obtain ⟨j, res, s', hmsg, ht, h2, h3⟩ := F.step _ hw s.world hg
    have hst := hrun j (state s.world) hmsg
    have hfail : ∀ e, res = .error e → Smart.executeQuery t (.dict [(m, q)]) s =
        (.error e, { s with world := s', wire := s.wire ++ [.single (Smart.mkRequest m q)] }) := by
      rintro e rfl
      rw [Smart.executeQuery_one, bind_apply]
      have : Smart.executeSingle t m q s = (.error e, { s with world := s', wire := s.wire ++ [.single (Smart.mkRequest m q)] }) := by
        unfold Smart.executeSingle
        rw [bind_apply, Smart.send_apply, ht]
      rw [this]
    rcases h3 with ⟨e, rfl, he⟩ | ⟨e, rfl, he⟩ | ⟨rfl, he⟩
    · rw [hfail e rfl]
      exact ⟨h2, (by show R _ (state s'); rw [he]; exact hrefl _), fun _ h => by cases h⟩
    · rw [hfail e rfl]
      exact ⟨h2, (by show R _ (state s'); rw [he]; exact hst), fun _ h => by cases h⟩
    · rw [Smart.executeQuery_one, bind_apply]
      rcases hans j (state s.world) hmsg with ⟨v, hc, hu⟩ | ⟨c, x, hc0, hc⟩
      · rw [Smart.executeSingle_carries t ht hc]
        simp only
        have hce : Smart.completeEntry (some fun m _ n => Smart.fetchPage t m n) m q (.value v)
            { s with world := s', wire := s.wire ++ [.single (Smart.mkRequest m q)] } =
            (.ok (.value v), { s with world := s', wire := s.wire ++ [.single (Smart.mkRequest m q)] }) := by
          unfold Smart.completeEntry
          simp only
          split
          · rw [bind_apply, Smart.handleResponseLists_unpaged _ v hu]
            rfl
          · rfl
        rw [bind_apply, hce]
        refine ⟨h2, ?_, fun r hr => ⟨j, v, hmsg, hc, ?_, he⟩⟩
        · show R _ (state s')
          rw [he]; exact hst
        · exact (Except.ok.inj hr).symm
      · obtain ⟨e, hexp⟩ := expected_error hc0
        have : Smart.executeSingle t m q s = (.error e, { s with world := s', wire := s.wire ++ [.single (Smart.mkRequest m q)] }) := by
          unfold Smart.executeSingle
          rw [bind_apply, Smart.send_apply, ht]
          simp only
          rw [bind_apply, lift_apply, Smart.checkResponse_carries_raise hc]
          simp only [hexp]
        rw [this]
        exact ⟨h2, (by show R _ (state s'); rw [he]; exact hst), fun _ h => by cases h⟩
  let R' : Smart.St σ → Smart.St σ → Prop := fun a b => Good a.world → Good b.world ∧ R (state a.world) (state b.world)
  have hrefl' : ∀ s, R' s s := fun s hg => ⟨hg, hrefl _⟩
  have htrans' : ∀ a b c, R' a b → R' b c → R' a c := by
    intro a b c h1 h2 hg
    obtain ⟨g1, e1⟩ := h1 hg
    obtain ⟨g2, e2⟩ := h2 g1
    exact ⟨g2, htrans _ _ _ e1 e2⟩
  have hattR : Rel R' (Smart.executeQuery t (.dict [(m, q)])) := fun s hg => ⟨(hatt s hg).1, (hatt s hg).2.1⟩
  have hresetR : ∀ s : Smart.St σ, R' s { s with world := (t.reset s.world).2 } :=
    fun s hg => ⟨(F.reset s.world hg).1, by show R _ (state (t.reset s.world).2); rw [(F.reset s.world hg).2]; exact hrefl _⟩
  have hall : Rel R' (Smart.query t (.dict [(m, q)]) rc) := by
    rw [Smart.query_unfold]
    exact Retry.loop_rel hrefl' htrans' true _ (fun _ => hattR) (fun s => hresetR s) (fun s => hrefl' s) rc _
  refine ⟨(hall s hg).1, (hall s hg).2, fun r hr => ?_⟩
  obtain ⟨s1, h1, h2⟩ := Smart.query_last t _ rc hrefl' htrans' hattR hresetR (s := s) (s' := out.2) (r := r) (Prod.ext hr rfl)
  obtain ⟨g1, e1⟩ := h1 hg
  obtain ⟨-, -, h3⟩ := hatt s1 g1
  rw [h2] at h3
  obtain ⟨j, v, hm, hc, hr, hs⟩ := h3 r rfl
  exact ⟨_, j, v, e1, hm, hc, hr, hs⟩

end
end Kasa.EndToEnd

namespace Kasa.ChildNetwork
open PyM EndToEnd Smart SmartSpec ChildSpec

theorem asks_data (q : Query) : Asks q (.obj [("method", .str (Child.methodAndParams q).1), ("params", (Child.methodAndParams q).2)]) := by
  cases q with
  | name m => exact ⟨rfl, rfl⟩
  | dict requests =>
    match requests with
    | [(m, p)] => exact ⟨rfl, rfl⟩
    | [] => exact ⟨rfl, _, _, rfl, rfl, rfl⟩
    | x :: y :: rest =>
      refine ⟨rfl, _, _, rfl, rfl, ?_⟩
      rw [List.map_map]
      apply List.map_congr_left
      intro kv _
      exact Child.readRequest_item kv.1 kv.2

/-- What the child is handed. -/
abbrev dataOf (q : Query) : Json := .obj [("method", .str (Child.methodAndParams q).1), ("params", (Child.methodAndParams q).2)]

/-- What the device is sent. -/
abbrev bodyOf (id : String) (q : Query) : Json := .obj [("device_id", .str id), ("requestData", dataOf q)]

theorem proper_params {q : Query} (hq : ProperQuery q) : JsonText.Proper (Child.methodAndParams q).2 := by
  cases q with
  | name m => simp [Child.methodAndParams, JsonText.Proper]
  | dict requests =>
    have hl : ∀ l : Dict String Json, (∀ m p, (m, p) ∈ l → JsonText.Proper p) →
        JsonText.ProperList (l.map fun kv => Child.requestItem kv.1 kv.2) := by
      intro l
      induction l with
      | nil => intro _; simp [JsonText.ProperList]
      | cons kv l ih =>
        intro h
        rw [List.map_cons, JsonText.ProperList]
        refine ⟨?_, ih fun m p hm => h m p (.tail _ hm)⟩
        have := h kv.1 kv.2 (.head _)
        unfold Child.requestItem
        split <;> simp [JsonText.Proper, JsonText.ProperKvs, Dict.WF, Dict.keys, this]
    have hmany : JsonText.Proper (.obj [("requests", .arr (requests.map fun kv => Child.requestItem kv.1 kv.2))]) := by
      have := hl requests hq
      simp [JsonText.Proper, JsonText.ProperKvs, Dict.WF, Dict.keys, this]
    match requests, hq, hmany with
    | [(m, p)], hq, _ => exact hq m p (.head _)
    | [], _, hmany => exact hmany
    | x :: y :: rest, _, hmany => exact hmany

theorem proper_body (id : String) {q : Query} (hq : ProperQuery q) : JsonText.Proper (bodyOf id q) := by
  have := proper_params hq
  simp [JsonText.Proper, JsonText.ProperKvs, Dict.WF, Dict.keys, this]

section
variable {σ γ β : Type} {t : Smart.Transport σ} {p : Program (γ × (String → β))} {uuid : String} {Known : String → Prop}
variable {kid : String → Program β} {Good : σ → Prop} {state : σ → γ × (String → β)}

theorem ask_apply (id : String) (q : Query) (rc : Int) (s : Smart.St σ) : Child.ask t (some id) q rc s =
    match Smart.query t (.dict [("control_child", bodyOf id q)]) rc s with
    | (.ok response, s') => (Child.unwrap (Child.methodAndParams q).1 response, s')
    | (.error e, s') => (.error e, s') := by
  have h : Child.ask t (some id) q rc s = Child.query (fun req => Smart.query t (.dict req) rc) id q s := rfl
  have he : Child.envelope id (Child.methodAndParams q) = [("control_child", bodyOf id q)] := rfl
  rw [h, Child.query_apply, he]
  cases Smart.query t (.dict [("control_child", bodyOf id q)]) rc s with
  | mk r s' => cases r <;> rfl

theorem ask_state (id : String) (q : Query) (rc : Int) (s : Smart.St σ) :
    (Child.ask t (some id) q rc s).2 = (Smart.query t (.dict [("control_child", bodyOf id q)]) rc s).2 := by
  rw [ask_apply]
  cases h : Smart.query t (.dict [("control_child", bodyOf id q)]) rc s with
  | mk r s' => cases r <;> rfl

/-- The query that a call comes down to. -/
def down (c : Call) : Smart.Query × Int :=
  match c.child with
  | none => (c.query, c.retries)
  | some id => (.dict [("control_child", bodyOf id c.query)], c.retries)

theorem calls_queries (cs : List Call) (s : Smart.St σ) : calls t cs s = queries t (cs.map down) s := by
  induction cs generalizing s with
  | nil => rfl
  | cons c cs ih =>
    rw [List.map_cons]
    show calls t cs (Child.ask t c.child c.query c.retries s).2 = queries t (cs.map down) (Smart.query t (down c).1 (down c).2 s).2
    rw [ih]
    obtain ⟨child, q, rc⟩ := c
    cases child with
    | none => rfl
    | some id => rw [ask_state]; rfl

theorem proper_down (c : Call) (h : ProperQuery c.query) : ProperQuery (down c).1 := by
  obtain ⟨child, q, rc⟩ := c
  cases child with
  | none => exact h
  | some id =>
    intro m p hm
    cases hm with
    | head => exact proper_body id h
    | tail _ h => cases h

theorem calls_good (F : Faithful t p uuid Good state) (cs : List Call) (hcs : ∀ c ∈ cs, ProperQuery c.query) (s : Smart.St σ) (hg : Good s.world) :
    Good (calls t cs s).world := by
  rw [calls_queries]
  refine (F.queries_explains _ s (fun q hq => ?_) hg).1
  obtain ⟨c, hc, rfl⟩ := List.mem_map.mp hq
  exact proper_down c (hcs c hc)

/-- The children of `a` become those of `b` by queries `d` to the child `id`. -/
def Steps (k : Program β) (id : String) (d : Json) (a b : γ × (String → β)) : Prop :=
  (∀ i, i ≠ id → b.2 i = a.2 i) ∧ ∃ n : Nat, b.2 id = Nat.repeat (fun x => (k.run d x).2) n (a.2 id)

theorem repeat_add {X : Type} (f : X → X) (m n : Nat) (x : X) : Nat.repeat f (m + n) x = Nat.repeat f m (Nat.repeat f n x) := by
  induction m with
  | zero => rw [Nat.zero_add]; rfl
  | succ m ih => rw [Nat.succ_add]; show f _ = f _; rw [ih]

/-- A query to a child. -/
theorem ask_child (F : Faithful t p uuid Good state) (H : Hub p uuid Known kid) (id : String) (hk : Known id) (q : Query) (hq : ProperQuery q)
    (rc : Int) (s : Smart.St σ) (hg : Good s.world) :
    let out := Child.ask t (some id) q rc s
    Good out.2.world ∧ Steps (kid id) id (dataOf q) (state s.world) (state out.2.world) ∧
    ∀ r, out.1 = .ok r → ∃ a v, Steps (kid id) id (dataOf q) (state s.world) a ∧
      v.get? "responseData" = some ((kid id).run (dataOf q) (a.2 id)).1 ∧
      Child.unwrap (Child.methodAndParams q).1 [("control_child", .value v)] = .ok r ∧
      stateOf state out.2 id = ((kid id).run (dataOf q) (a.2 id)).2 := by
  intro out
  have haddr : Addressed (bodyOf id q) id (dataOf q) := ⟨rfl, rfl⟩
  have hmk : Smart.mkRequest "control_child" (bodyOf id q) = ⟨"control_child", some (bodyOf id q)⟩ := rfl
  obtain ⟨h1, h2, h3⟩ := F.one "control_child" (bodyOf id q) (proper_body id hq) (Steps (kid id) id (dataOf q))
    (fun a => ⟨fun _ _ => rfl, 0, rfl⟩)
    (fun a b c h1 h2 => by
      obtain ⟨o1, n1, e1⟩ := h1
      obtain ⟨o2, n2, e2⟩ := h2
      exact ⟨fun i hi => (o2 i hi).trans (o1 i hi), n2 + n1, by rw [e2, e1, repeat_add]⟩)
    (fun j a hj => by
      rcases H id (dataOf q) (bodyOf id q) j a hk haddr hj with ⟨v, -, -, -, h⟩ | ⟨c, x, -, -, h⟩
      · rw [Steps, h]
        exact ⟨fun i hi => if_neg hi, 1, if_pos rfl⟩
      · rw [Steps, h]
        exact ⟨fun _ _ => rfl, 0, rfl⟩)
    (fun j a hj => by
      rcases H id (dataOf q) (bodyOf id q) j a hk haddr hj with ⟨v, hc, -, hu, -⟩ | ⟨c, x, h0, hc, -⟩
      · exact .inl ⟨v, hc, hu⟩
      · exact .inr ⟨c, x, h0, hc⟩)
    rc s hg
  have hout : out.2 = (Smart.query t (.dict [("control_child", bodyOf id q)]) rc s).2 := ask_state id q rc s
  rw [hout]
  refine ⟨h1, h2, fun r hr => ?_⟩
  have hr' : (Child.ask t (some id) q rc s).1 = .ok r := hr
  rw [ask_apply] at hr'
  cases hres : Smart.query t (.dict [("control_child", bodyOf id q)]) rc s with
  | mk o s' =>
    rw [hres] at hr' h3
    cases o with
    | error e => cases hr'
    | ok resp =>
      obtain ⟨a, j, v, e1, hm, hc, rfl, hst⟩ := h3 resp rfl
      rcases H id (dataOf q) (bodyOf id q) j a hk haddr hm with ⟨v', hc', hrd, -, h⟩ | ⟨c, x, h0, hc', -⟩
      · have hv : v' = v := by
          have := hc'.2.2.symm.trans hc.2.2
          exact Option.some.inj this
        subst hv
        refine ⟨a, v', e1, hrd, hr', ?_⟩
        show (state s'.world).2 id = _
        rw [hst, h]
        exact if_pos rfl
      · exfalso
        have := hc'.2.1.symm.trans hc.2.1
        exact h0 (by injection this with this; injection this)

theorem multiEntry_wf {acc : Dict String Entry} {item : Json} {r : Dict String Entry} (hw : Dict.WF acc)
    (h : Child.multiEntry acc item = .ok r) : Dict.WF r := by
  unfold Child.multiEntry at h
  split at h
  · split at h
    · cases h
    · cases hc : checkResponse false _ with
      | error e => rw [hc] at h; cases h
      | ok x => rw [hc] at h; cases h; exact Dict.WF_set hw _ _
    · cases h
  · cases h

theorem multiEntries_wf (items : List Json) (acc r : Dict String Entry) (hw : Dict.WF acc) (h : Child.multiEntries items acc = .ok r) : Dict.WF r := by
  induction items generalizing acc with
  | nil => cases h; exact hw
  | cons item items ih =>
    have h : (Child.multiEntry acc item >>= fun acc' => Child.multiEntries items acc') = .ok r := h
    cases h1 : Child.multiEntry acc item with
    | error e => rw [h1] at h; cases h
    | ok acc' => rw [h1] at h; exact ih acc' (multiEntry_wf hw h1) h

theorem unwrap_run {v rd : Json} (m : String) (hv : v.get? "responseData" = some rd) (ht : rd.truthy = true) :
    Child.unwrap m [("control_child", .value v)] = Child.unwrapData m rd :=
  Child.unwrap_inside ⟨v, rfl, hv⟩ ht m

theorem carries_truthy {j : Json} {a : Answer} (h : Carries j a) : j.truthy = true := by
  obtain ⟨⟨kvs, rfl⟩, h1, _⟩ := h
  cases kvs with
  | nil => simp [Json.get?] at h1
  | cons x xs => rfl

theorem unwrapData_single {rd : Json} {a : Answer} (m : String) (hc : Carries rd a) (hshape : ∀ v, a.2 = some v → Plain v) :
    Child.unwrapData m rd = match CodesSpec.expected a.1 with
      | .ok () => .ok [(m, .value (a.2.getD .null))]
      | .error e => .error e := by
  let P : Child.Parent Unit := fun _ s => (.ok [("control_child", .value (.obj [("responseData", rd)]))], s)
  have h1 := Child.C10_single P "" m .null () () _ rd a rfl ⟨_, rfl, rfl⟩ hc hshape
  have h2 := (Child.query_apply P "" (.dict [(m, .null)]) ()).symm.trans h1
  simp only [P] at h2
  rw [Child.unwrap_inside ⟨_, rfl, rfl⟩ (carries_truthy hc)] at h2
  exact congrArg Prod.fst h2

theorem code_zero {c : Int} {x : Unit} (h : CodesSpec.expected c = .ok x) : c = 0 := by
  by_cases h0 : c = 0
  · exact h0
  · obtain ⟨e, he⟩ := expected_error h0
    rw [he] at h
    cases h

/-- A query that sets something at a child. -/
theorem child_setter (F : Faithful t p uuid Good state) (H : Hub p uuid Known kid) (id : String) (hk : Known id) (m : String) (q : Json)
    (hq : JsonText.Proper q) {f : β → β} {v : Json} (hset : KidSets (kid id) m q f v) (rc : Int) (s : Smart.St σ) (hg : Good s.world) :
    let out := Child.ask t (some id) (.dict [(m, q)]) rc s
    Good out.2.world ∧ (∀ r, out.1 = .ok r → r = [(m, .value v)] ∧ stateOf state out.2 id = f (stateOf state s id)) ∧
      (stateOf state out.2 id = stateOf state s id ∨ stateOf state out.2 id = f (stateOf state s id)) := by
  intro out
  have hqq : ProperQuery (.dict [(m, q)]) := by
    intro m' p' hm
    cases hm with
    | head => exact hq
    | tail _ h => cases h
  obtain ⟨h1, ⟨-, n, h2⟩, h3⟩ := ask_child F H id hk (.dict [(m, q)]) hqq rc s hg
  have hd : Asks (.dict [(m, q)]) (dataOf (.dict [(m, q)])) := asks_data _
  have hrep : ∀ n x, Nat.repeat (fun x => ((kid id).run (dataOf (.dict [(m, q)])) x).2) n x = x ∨
      Nat.repeat (fun x => ((kid id).run (dataOf (.dict [(m, q)])) x).2) n x = f x := by
    intro n x
    induction n with
    | zero => exact .inl rfl
    | succ n ih =>
      show ((kid id).run _ (Nat.repeat _ n x)).2 = x ∨ ((kid id).run _ (Nat.repeat _ n x)).2 = f x
      rcases hset.sets _ (Nat.repeat (fun x => ((kid id).run (dataOf (.dict [(m, q)])) x).2) n x) hd with ⟨-, h⟩ | ⟨_, _, _, _, _, h⟩
      · rw [h]
        rcases ih with ih | ih <;> rw [ih]
        · exact .inr rfl
        · exact .inr (hset.idem x)
      · rw [h]; exact ih
  refine ⟨h1, fun r hr => ?_, ?_⟩
  · obtain ⟨a, v', ⟨-, n', e1⟩, hrd, hu, hst⟩ := h3 r hr
    rcases hset.sets _ (a.2 id) hd with ⟨hc, h⟩ | ⟨c, x, h0, hc, hx, h⟩
    · rw [unwrap_run _ hrd (carries_truthy hc), unwrapData_single _ hc (fun u hu => by cases hu; exact hset.plain)] at hu
      refine ⟨?_, ?_⟩
      · simp only [CodesSpec.expected, if_true] at hu
        exact (Except.ok.inj hu).symm
      · rw [hst, h, e1]
        rcases hrep n' ((state s.world).2 id) with h | h <;> rw [h]
        · rfl
        · exact hset.idem _
    · rw [unwrap_run _ hrd (carries_truthy hc), unwrapData_single _ hc hx] at hu
      obtain ⟨e, he⟩ := expected_error h0
      simp only [he] at hu
      cases hu
  · have := hrep n ((state s.world).2 id)
    rw [← h2] at this
    exact this

/-- A query that reads from a child. -/
theorem child_reads (F : Faithful t p uuid Good state) (H : Hub p uuid Known kid) (id : String) (hk : Known id) {Rs : Request → Prop}
    {ans : β → Request → Answer} (hr : KidReads (kid id) Rs ans) {requests : Dict String Json} (hne : requests ≠ []) (hq : ReadQuery Rs requests)
    (rc : Int) (s : Smart.St σ) (hg : Good s.world) :
    let out := Child.ask t (some id) (.dict requests) rc s
    Good out.2.world ∧ stateOf state out.2 id = stateOf state s id ∧
      ∀ r, out.1 = .ok r → Shows (ans (stateOf state s id)) requests r ∧
        (requests.length = 1 ∨ Thorough (kid id) → ∀ m ∈ requests.keys, m ∈ r.keys) := by
  intro out
  obtain ⟨h1, ⟨-, n, h2⟩, h3⟩ := ask_child F H id hk (.dict requests) hq.proper rc s hg
  have hd : Asks (.dict requests) (dataOf (.dict requests)) := asks_data _
  have hstay : ∀ b, ((kid id).run (dataOf (.dict requests)) b).2 = b := by
    intro b
    match requests, hne, hq, hd with
    | [(m, q)], _, hq, hd => exact (hr.single m q (hq.reads m q (.head _)) _ b hd).2
    | x :: y :: rest, _, hq, hd => exact (hr.multi _ (by simp) hq.reads _ b hd).1
  have hrep : ∀ n x, Nat.repeat (fun x => ((kid id).run (dataOf (.dict requests)) x).2) n x = x := by
    intro n x
    induction n with
    | zero => rfl
    | succ n ih => show ((kid id).run _ (Nat.repeat _ n x)).2 = x; rw [hstay, ih]
  rw [hrep] at h2
  refine ⟨h1, h2, fun r hok => ?_⟩
  obtain ⟨a, v, ⟨-, n', e1⟩, hrd, hu, -⟩ := h3 r hok
  rw [hrep] at e1
  rw [e1] at hrd
  by_cases hl : requests.length = 1
  · match requests, hl, hq, hd, hrd, hu with
    | [(m, q)], _, hq, hd, hrd, hu =>
      have hR := hq.reads m q (.head _)
      obtain ⟨hc, -⟩ := hr.single m q hR _ ((state s.world).2 id) hd
      rw [unwrap_run _ hrd (carries_truthy hc), unwrapData_single _ hc (fun u hu => hr.plain _ hR _ u hu)] at hu
      cases he : CodesSpec.expected (ans ((state s.world).2 id) (requestFor m q)).1 with
      | error e => simp only [he] at hu; cases hu
      | ok x =>
        simp only [he] at hu
        cases hu
        refine ⟨⟨List.nodup_cons.mpr ⟨nofun, List.nodup_nil⟩, fun m' e hm' => ?_⟩, fun _ m' hm' => hm'⟩
        have hm' : Dict.get? [(m, Entry.value ((ans ((state s.world).2 id) (requestFor m q)).2.getD .null))] m' = some e := hm'
        by_cases hmm : m = m'
        · subst hmm
          simp [Dict.get?] at hm'
          refine ⟨q, .head _, ?_⟩
          rw [← hm']
          show _ = entryFor (ans ((state s.world).2 id) (requestFor m q))
          unfold entryFor
          rw [if_pos (code_zero he)]
        · simp [Dict.get?, hmm] at hm'
  · have hl2 : 2 ≤ requests.length := by
      cases requests with
      | nil => exact absurd rfl hne
      | cons x l => cases l with
        | nil => exact absurd rfl hl
        | cons y l => simp
    obtain ⟨-, res, items, hres, hitems, hine, hsome⟩ := hr.multi requests hl2 hq.reads _ ((state s.world).2 id) hd
    generalize hjd : ((kid id).run (dataOf (.dict requests)) ((state s.world).2 id)).1 = rd at hrd hres
    obtain ⟨kvs, rfl⟩ : ∃ kvs, rd = .obj kvs := by cases rd <;> simp [Json.get?] at hres ⊢
    obtain ⟨kvs', rfl⟩ : ∃ kvs', res = .obj kvs' := by cases res <;> simp [Json.get?] at hitems ⊢
    have hres' : Dict.get? kvs "result" = some (.obj kvs') := hres
    have hitems' : Dict.get? kvs' "responses" = some (.arr items) := hitems
    have ht : (Json.obj kvs).truthy = true := by
      cases kvs with
      | nil => simp at hres'
      | cons x xs => rfl
    have ht' : (Json.obj kvs').truthy = true := by
      cases kvs' with
      | nil => simp at hitems'
      | cons x xs => rfl
    have hti : (Json.arr items).truthy = true := by
      cases items with
      | nil => exact absurd rfl hine
      | cons x xs => rfl
    rw [unwrap_run _ hrd ht] at hu
    simp only [Child.unwrapData, Child.getAttr, hres', Child.childResponses, Child.optTruthy, ht', if_true, Option.getD_some, hitems', hti] at hu
    obtain ⟨r', e1', e2, e3⟩ := Child.multiEntries_spec requests items hsome [] (by intro m e h; simp at h)
    rw [e1'] at hu
    cases hu
    refine ⟨⟨multiEntries_wf items [] _ Dict.WF_nil e1', fun m e hm => ?_⟩, ?_⟩
    · obtain ⟨q, hm', he⟩ := e2 m e hm
      exact ⟨q, hm', he⟩
    · rintro (h | h) m hm
      · exact absurd h hl
      · rw [e3 m]
        exact .inr (h requests _ _ _ items hd (by rw [hjd]; exact hres) hitems m hm)

/-- Calls that have no business with a child. -/
theorem apart_calls (F : Faithful t p uuid Good state) (H : Hub p uuid Known kid) (id : String) (hk : Known id) (cs : List Call)
    (hcs : ∀ c ∈ cs, Apart p uuid Known kid id c) (s : Smart.St σ) (hg : Good s.world) :
    Good (calls t cs s).world ∧ stateOf state (calls t cs s) id = stateOf state s id := by
  induction cs generalizing s with
  | nil => exact ⟨hg, rfl⟩
  | cons c cs ih =>
    have hone : Good (Child.ask t c.child c.query c.retries s).2.world ∧
        stateOf state (Child.ask t c.child c.query c.retries s).2 id = stateOf state s id := by
      cases hcs c (.head _) with
      | other hne hk' hq =>
        obtain ⟨h1, ⟨h2, -⟩, -⟩ := ask_child F H _ hk' _ hq _ s hg
        exact ⟨h1, h2 id (Ne.symm hne)⟩
      | child hr hne hq =>
        obtain ⟨h1, h2, -⟩ := child_reads F H id hk hr hne hq _ s hg
        exact ⟨h1, h2⟩
      | device hr hq =>
        obtain ⟨h1, h2, -, -⟩ := F.reads hr hq _ s hg
        exact ⟨h1, congrArg (fun a => a.2 id) h2⟩
    obtain ⟨h3, h4⟩ := ih (fun c h => hcs c (.tail _ h)) _ hone.1
    exact ⟨h3, h4.trans hone.2⟩

theorem othersStay (F : Faithful t p uuid Good state) (H : Hub p uuid Known kid) (s0 : Smart.St σ) (hs0 : Good s0.world) :
    OthersStay t Known state s0 := by
  intro before hbefore id hk q hq rc s id' hne
  exact (ask_child F H id hk q hq rc s (calls_good F before hbefore s0 hs0)).2.1.1 id' hne

theorem childReadsBack (F : Faithful t p uuid Good state) (H : Hub p uuid Known kid) (s0 : Smart.St σ) (hs0 : Good s0.world) :
    ChildReadsBack t p uuid Known kid state s0 := by
  intro before hbefore id hk m q hq f v hset between hbetween Rs ans hr requests hne hread rc rc' s set got r hgot
  obtain ⟨h1, h2, h3⟩ := child_setter F H id hk m q hq hset rc s (calls_good F before hbefore s0 hs0)
  obtain ⟨h4, h5⟩ := apart_calls F H id hk between hbetween set.2 h1
  obtain ⟨-, -, h6⟩ := child_reads F H id hk hr hne hread rc' _ h4
  obtain ⟨h7, h8⟩ := h6 r hgot
  rw [h5] at h7
  refine ⟨fun h => h8 (.inr h), fun v' hv => ?_, fun e he => ?_⟩
  · obtain ⟨k1, k2⟩ := h2 v' hv
    rw [show stateOf state set.2 id = _ from k2] at h7
    exact ⟨k1, h7⟩
  · rcases h3 with h | h
    · rw [show stateOf state set.2 id = _ from h] at h7
      exact .inl h7
    · rw [show stateOf state set.2 id = _ from h] at h7
      exact .inr h7

/-- What is asked in an update of a child. -/
theorem child_asked (env : SmartDevice.Env) (l : SmartDevice.Local) :
    (SmartDevice.childUpdate env l).2.net.asked = (SmartDevice.childQueryModules env (SmartDevice.requestOf false (env.clock l.net.ticks) l.dev)
      { l with net := { l.net with ticks := l.net.ticks + 1 } }).2.net.asked := by
  have h0 : SmartDevice.childUpdate env l = (SmartDevice.childQueryModules env (SmartDevice.requestOf false (env.clock l.net.ticks) l.dev) >>= fun _ =>
      SmartDevice.postAll (env.clock l.net.ticks) (fun n => (SmartDevice.dueNames false (env.clock l.net.ticks) l.dev).contains n) >>= fun _ =>
      SmartDevice.modifyDev (fun d => { d with time := some (env.clock l.net.ticks) }) >>= fun _ => SmartDevice.initFeatures)
        { l with net := { l.net with ticks := l.net.ticks + 1 } } := rfl
  rw [h0, bind_apply]
  cases SmartDevice.childQueryModules env (SmartDevice.requestOf false (env.clock l.net.ticks) l.dev) { l with net := { l.net with ticks := l.net.ticks + 1 } } with
  | mk r l1 =>
    cases r with
    | error e => rfl
    | ok x =>
      simp only
      have hR : Rel (fun a b : SmartDevice.Local => b.net = a.net)
          (SmartDevice.postAll (env.clock l.net.ticks) (fun n => (SmartDevice.dueNames false (env.clock l.net.ticks) l.dev).contains n) >>= fun _ =>
            SmartDevice.modifyDev (fun d => { d with time := some (env.clock l.net.ticks) }) >>= fun _ => SmartDevice.initFeatures) := by
        refine Rel.bind (fun _ _ _ h h' => h'.trans h) (fun a => (SmartDevice.same_postAll _ _ a).net) fun _ => ?_
        refine Rel.bind (fun _ _ _ h h' => h'.trans h) (fun a => rfl) fun _ a => ?_
        have h := SmartDevice.feats_init a
        unfold SmartDevice.SameButFeats at h
        rw [h]
      exact congrArg SmartDevice.Net.asked (hR l1)

theorem childUpdateShows (F : Faithful t p uuid Good state) (H : Hub p uuid Known kid) (s0 : Smart.St σ) (hs0 : Good s0.world) :
    ChildUpdateShows t p uuid Known kid state s0 := by
  intro before hbefore id hk m q hq f v hset between hbetween Rs ans hr rc rc' s set v' hv env at' l hid req hne hread hx after hb hat
  obtain ⟨h1, h2, h3⟩ := child_setter F H id hk m q hq hset rc s (calls_good F before hbefore s0 hs0)
  obtain ⟨h4, h5⟩ := apart_calls F H id hk between hbetween set.2 h1
  have hst : stateOf state (at' l.net.asked.length) id = f (stateOf state s id) := by
    rw [hat, h5]
    exact (h2 v' hv).2
  have hg : Good (at' l.net.asked.length).world := by rw [hat]; exact h4
  obtain ⟨-, hok, hfail⟩ := SmartDevice.C36_queried_partial env l req rfl
  rw [hid] at hok hfail
  obtain ⟨hg1, hst1, hok1⟩ := child_reads F H id hk hr hne hread rc' (at' l.net.asked.length) hg
  cases hans : env.answer l.net.asked.length (some id) req with
  | ok resp =>
    obtain ⟨k1, k2⟩ := hok1 resp ((hb.answer _ _).symm.trans hans)
    have hlast : after.dev.last = resp := hok hne resp hans
    rw [hlast]
    rw [hst] at k1
    refine ⟨fun k e he => .inl (k1.2 k e he), fun hth k hk => ?_⟩
    cases hgk : Dict.get? resp k with
    | none => exact absurd (k2 (.inr hth) k hk) (Dict.get?_eq_none_iff.mp hgk)
    | some e => rfl
  | error e =>
    obtain ⟨hyes, hno⟩ := hfail hne e hans (hx e hans).1 (hx e hans).2
    have hnonempty : req.isEmpty = false := by
      cases hreq : req with
      | nil => exact absurd hreq hne
      | cons a b => rfl
    have hasked : after.net.asked = l.net.asked ++ (some id, req) :: req.map (fun p => (some id, [p])) := by
      show (SmartDevice.childUpdate env l).2.net.asked = _
      rw [child_asked]
      unfold SmartDevice.childQueryModules
      rw [show (SmartDevice.requestOf false (env.clock l.net.ticks) l.dev).isEmpty = false from hnonempty]
      simp only [Bool.false_eq_true, if_false]
      obtain ⟨r, k1, _⟩ := SmartDevice.askModules_fallback env req (SmartDevice.request_wf _ _ _)
        { l with net := { l.net with ticks := l.net.ticks + 1 } } e (by rw [hid]; exact hans) (hx e hans).1
        (fun i p hp e' he' => (hx e hans).2 i p hp e' (by rw [hid] at he'; exact he'))
      rw [bind_ok k1]
      show l.net.asked ++ (req :: req.map (fun p => [p])).map (fun r => (l.dev.id, r)) = _
      rw [hid, List.map_cons, List.map_map]
      rfl
    have one : ∀ p ∈ req, ReadQuery Rs [p] := by
      intro p hp
      refine ⟨List.nodup_cons.mpr ⟨nofun, List.nodup_nil⟩, ?_, ?_⟩
      · intro m q hm; cases hm with
        | head => exact hread.proper _ _ hp
        | tail _ h => cases h
      · intro m q hm; cases hm with
        | head => exact hread.reads _ _ hp
        | tail _ h => cases h
    have hn0 : at' (l.net.asked.length + 1) = (Child.ask t (some id) (.dict req) rc' (at' l.net.asked.length)).2 := by
      refine hb.next _ _ ?_
      rw [hasked]
      simp
    have key : ∀ i, i ≤ req.length → Good (at' (l.net.asked.length + 1 + i)).world ∧
        stateOf state (at' (l.net.asked.length + 1 + i)) id = f (stateOf state s id) := by
      intro i
      induction i with
      | zero =>
        intro _
        rw [Nat.add_zero, hn0]
        exact ⟨hg1, hst1.trans hst⟩
      | succ i ih =>
        intro hi
        obtain ⟨g, st⟩ := ih (by omega)
        have hp : req[i]? = some req[i] := List.getElem?_eq_getElem (by omega)
        have : at' (l.net.asked.length + 1 + i + 1) = (Child.ask t (some id) (.dict [req[i]]) rc' (at' (l.net.asked.length + 1 + i))).2 := by
          refine hb.next _ _ ?_
          rw [hasked]
          have hl : l.net.asked.length + 1 + i - l.net.asked.length = i + 1 := by omega
          rw [List.getElem?_append_right (by omega), hl, List.getElem?_cons_succ, List.getElem?_map, hp]
          rfl
        rw [← Nat.add_assoc, this]
        obtain ⟨a1, a2, -⟩ := child_reads F H id hk hr (by simp) (one req[i] (List.getElem_mem _)) rc' (at' (l.net.asked.length + 1 + i)) g
        exact ⟨a1, a2.trans st⟩
    constructor
    · intro k e' he'
      by_cases hkm : k ∈ Dict.keys req
      · obtain ⟨⟨k', q'⟩, hm, hkk⟩ := List.mem_map.mp hkm
        have hkk : k' = k := hkk
        subst hkk
        obtain ⟨i, hi⟩ := List.getElem?_of_mem hm
        have hil : i < req.length := (List.getElem?_eq_some_iff.mp hi).1
        obtain ⟨g, st⟩ := key i (Nat.le_of_lt hil)
        have hy := (hyes i (k', q') hi).symm.trans he'
        unfold SmartDevice.outcome at hy
        cases ho : env.answer (l.net.asked.length + 1 + i) (some id) [(k', q')] with
        | error e => rw [ho] at hy; cases hy; exact .inr rfl
        | ok r =>
          rw [ho] at hy
          obtain ⟨-, -, a4⟩ := child_reads F H id hk hr (by simp) (one (k', q') hm) rc' _ g
          have hr1 := (a4 r ((hb.answer _ _).symm.trans ho)).1
          rw [st] at hr1
          simp only [Option.some.injEq] at hy
          cases hgk : Dict.get? r k' with
          | none => rw [hgk] at hy; exact .inr hy.symm
          | some e2 =>
            rw [hgk] at hy
            obtain ⟨q2, hm2, he2⟩ := hr1.2 k' e2 hgk
            cases hm2 with
            | head => exact .inl ⟨q', hm, hy.symm.trans he2⟩
            | tail _ h => cases h
      · have := hno k hkm
        rw [show Dict.get? after.dev.last k = none from this] at he'
        cases he'
    · intro _ k hkm
      obtain ⟨⟨k', q'⟩, hm, hkk⟩ := List.mem_map.mp hkm
      have hkk : k' = k := hkk
      subst hkk
      obtain ⟨i, hi⟩ := List.getElem?_of_mem hm
      rw [show Dict.get? after.dev.last k' = _ from hyes i (k', q') hi]
      rfl

end
end Kasa.ChildNetwork
