import Verif.Lemmas.IotDevice
/-!
# C22, C23, C53: updates and commands of legacy devices
-/

namespace Kasa.Iot

open IotSpec Ops

/-! ## C22 -/

/-- The device answered the module's target with an error. -/
def RefusedTarget (last : List (String × Json)) (m : Mod) : Prop :=
  ∃ kvs, Dict.get? last m.target = some (.obj kvs) ∧ "err_code" ∈ Dict.keys kvs

/-- C22: the modules asked are all but those whose target the device has answered with an error. -/
theorem C22_asked (d : Dev) (hl : ∀ t v, Dict.get? d.lastUpdate t = some v → ∃ kvs, v = .obj kvs) :
    ∀ ms : List Mod, (∀ m ∈ ms, m.needs = none ∧ m.query ≠ []) →
      ∃ asked, supportedOf d ms = .ok asked ∧ List.Sublist asked ms ∧ ∀ m ∈ ms, m ∈ asked ↔ ¬ RefusedTarget d.lastUpdate m := by
  have one : ∀ m : Mod, m.needs = none → m.query ≠ [] →
      ∃ b, m.isSupported d = .ok b ∧ (b = true ↔ ¬ RefusedTarget d.lastUpdate m) := by
    intro m h1 h2
    unfold Mod.isSupported
    rw [h1]
    simp only
    by_cases h : Dict.has d.lastUpdate m.target = true
    · rw [if_pos h]
      cases hg : Dict.get? d.lastUpdate m.target with
      | none => unfold Dict.has at h; rw [hg] at h; cases h
      | some v =>
        obtain ⟨kvs, rfl⟩ := hl _ _ hg
        have hd : m.data d = .ok (.obj kvs) := by
          unfold Mod.data
          rw [if_neg (by simpa using h2), hg]
        refine ⟨!(Dict.has kvs "err_code"), ?_, ?_⟩
        · rw [hd]; rfl
        · unfold RefusedTarget
          rw [hg]
          simp only [Bool.not_eq_true', Dict.has_eq_false_iff]
          constructor
          · rintro hn ⟨k, he, hm⟩
            cases he
            exact hn hm
          · intro hn hm
            exact hn ⟨kvs, rfl, hm⟩
    · rw [if_neg h]
      refine ⟨true, rfl, ⟨fun _ => ?_, fun _ => rfl⟩⟩
      rintro ⟨kvs, he, -⟩
      exact h (by unfold Dict.has; rw [he]; rfl)
  intro ms
  induction ms with
  | nil => intro _; exact ⟨[], rfl, List.Sublist.refl _, by simp⟩
  | cons m ms ih =>
    intro h
    obtain ⟨asked, h1, h2, h3⟩ := ih (fun x hx => h x (List.mem_cons_of_mem _ hx))
    obtain ⟨b, h4, h5⟩ := one m (h m List.mem_cons_self).1 (h m List.mem_cons_self).2
    refine ⟨if b then m :: asked else asked, ?_, ?_, ?_⟩
    · unfold supportedOf
      rw [h4, h1]
      rfl
    · cases b
      · exact h2.cons m
      · exact h2.cons_cons m
    · intro x hx
      cases b with
      | true =>
        simp only [if_true, List.mem_cons]
        rcases List.mem_cons.mp hx with rfl | hx'
        · exact ⟨fun _ => h5.mp rfl, fun _ => Or.inl rfl⟩
        · rw [← h3 x hx']
          constructor
          · intro h
            rcases h with h | h
            · exact (h3 x hx').mpr (h ▸ h5.mp rfl)
            · exact h
          · exact Or.inr
      | false =>
        have hr : ¬ ¬ RefusedTarget d.lastUpdate m := fun hn => by simpa using h5.mpr hn
        simp only [Bool.false_eq_true, if_false]
        rcases List.mem_cons.mp hx with rfl | hx'
        · refine ⟨fun hm => ?_, fun hn => absurd hn hr⟩
          exact (h3 x (h2.subset hm)).mp hm
        · exact h3 x hx'

/-- C22: for every list of modules whose queries do not contradict each other, and every budget, the requests are the queries
of consecutive groups of modules: every module is in exactly one group, its query is part of that group's request, nothing
else is in the request (the first one carries what the caller put in), and no group of several modules, nor anything put
beside the caller's part, exceeds the budget. -/
theorem C22_requests (budget base : Nat) (req : List (String × Json)) (ms : List Mod)
    (hp : ∀ m ∈ ms, Proper (.obj m.query)) (har : ∀ m ∈ ms, Agree (.obj req) (.obj m.query))
    (hag : ∀ m ∈ ms, ∀ m' ∈ ms, Agree (.obj m.query) (.obj m'.query)) :
    ∃ out first rest, pack budget [] req base ms = .ok out ∧ Split Mod.size budget base ms first rest ∧
      out.length = rest.length + 1 ∧
      (∀ r, out[0]? = some r → PartOf (.obj req) (.obj r) ∧ (∀ m ∈ first, PartOf (.obj m.query) (.obj r)) ∧
        ∀ path, follow (.obj r) path ≠ none →
          follow (.obj req) path ≠ none ∨ ∃ m ∈ first, follow (.obj m.query) path ≠ none) ∧
      (∀ i g r, rest[i]? = some g → out[i + 1]? = some r → (∀ m ∈ g, PartOf (.obj m.query) (.obj r)) ∧
        ∀ path, follow (.obj r) path ≠ none → ∃ m ∈ g, follow (.obj m.query) path ≠ none) := by
  have hempty : ∀ q : List (String × Json), Agree (.obj []) (.obj q) := fun q => .dict _ _ (by intro k v w h; cases h)
  have htotal : ∀ (l : List Mod), (∀ m ∈ l, m ∈ ms) → ∀ done r est, (∀ m ∈ l, Agree (.obj r) (.obj m.query)) →
      ∃ out, pack budget done r est l = .ok out := by
    intro l
    induction l with
    | nil => intro _ done r est _; exact ⟨done ++ [r], rfl⟩
    | cons m l ih =>
      intro hl done r est ha
      have hm := hl m List.mem_cons_self
      have hl' : ∀ x ∈ l, x ∈ ms := fun x hx => hl x (List.mem_cons_of_mem _ hx)
      have step : ∀ r0 : List (String × Json), (∀ x ∈ m :: l, Agree (.obj r0) (.obj x.query)) →
          ∃ d, mergeKvs r0 m.query = .ok d ∧ ∀ x ∈ l, Agree (.obj d) (.obj x.query) := by
        intro r0 h0
        obtain ⟨s, h1, -, -, h4⟩ := merge_main _ (.obj m.query) (.obj r0) (Nat.le_refl _) (hp m hm) (h0 m List.mem_cons_self)
        unfold mergeVal at h1
        simp only [bind, Except.bind] at h1
        cases hk : mergeKvs r0 m.query with
        | error e => rw [hk] at h1; cases h1
        | ok d =>
          rw [hk] at h1
          cases h1
          exact ⟨d, rfl, fun x hx => h4 _ (h0 x (List.mem_cons_of_mem _ hx)) (hag m hm x (hl' x hx))⟩
      unfold pack
      by_cases hb : est + m.size > budget
      · rw [if_pos hb]
        obtain ⟨d, h1, h2⟩ := step [] (fun x _ => hempty _)
        simp only [bind, Except.bind, h1]
        exact ih hl' _ _ _ h2
      · rw [if_neg hb]
        obtain ⟨d, h1, h2⟩ := step r ha
        simp only [bind, Except.bind, h1]
        exact ih hl' _ _ _ h2
  obtain ⟨out, hout⟩ := htotal ms (fun _ h => h) [] req base har
  obtain ⟨first, r, rest, hs, ho, h1, h2⟩ := pack_groups budget ms [] req base out hout
  have hin : ∀ m, m ∈ first ++ (rest.map Prod.fst).flatten → m ∈ ms := by rw [hs.all]; exact fun _ h => h
  have hfirst : ∀ m ∈ first, m ∈ ms := fun m h => hin m (List.mem_append_left _ h)
  refine ⟨out, first, rest.map Prod.fst, hout, hs, by rw [ho]; simp, ?_, ?_⟩
  · intro r' hr'
    rw [ho] at hr'
    simp only [List.nil_append, List.getElem?_cons_zero, Option.some.injEq] at hr'
    subst hr'
    obtain ⟨s, t1, t2, t3, t4⟩ := mergedFrom_main first req (fun m h => hp m (hfirst m h)) (fun m h => har m (hfirst m h))
      (fun m h m' h' => hag m (hfirst m h) m' (hfirst m' h'))
    rw [h1] at t1
    cases t1
    exact ⟨t3 _ (.same _) (fun m h => har m (hfirst m h)), t2, t4⟩
  · intro i g r' hg hr'
    rw [ho] at hr'
    simp only [List.nil_append, List.getElem?_cons_succ, List.getElem?_map] at hr' hg
    cases hp' : rest[i]? with
    | none => rw [hp'] at hg; cases hg
    | some p =>
      rw [hp'] at hg hr'
      simp only [Option.map_some, Option.some.injEq] at hg hr'
      subst hg hr'
      have hmem : p ∈ rest := List.mem_of_getElem? hp'
      have hgm : ∀ m ∈ p.1, m ∈ ms := fun m h => hin m (List.mem_append_right _ (List.mem_flatten.mpr
        ⟨p.1, List.mem_map.mpr ⟨p, hmem, rfl⟩, h⟩))
      obtain ⟨s, t1, t2, -, t4⟩ := mergedFrom_main p.1 [] (fun m h => hp m (hgm m h)) (fun m _ => hempty _)
        (fun m h m' h' => hag m (hgm m h) m' (hgm m' h'))
      rw [h2 p hmem] at t1
      cases t1
      refine ⟨t2, fun path hf => ?_⟩
      have hne : path ≠ [] ∨ path = [] := by cases path <;> simp
      rcases t4 path hf with h | h
      · -- only the root of the empty dict can be followed
        cases path with
        | nil =>
          cases hg : p.1 with
          | nil => exact absurd hg (hs.nonempty _ (List.mem_map.mpr ⟨p, hmem, rfl⟩))
          | cons m l => exact ⟨m, List.mem_cons_self, by simp [follow]⟩
        | cons k path => exact absurd rfl h
      · exact h

/-- C22: a new request is begun only when the next module does not fit into the current one. -/
theorem C22_no_needless_split (budget est : Nat) (done : List (List (String × Json))) (req : List (String × Json))
    (ms : List Mod) (hfit : est + total Mod.size ms ≤ budget) (out : List (List (String × Json)))
    (h : pack budget done req est ms = .ok out) : out.length = done.length + 1 := by
  induction ms generalizing est req with
  | nil => cases h; simp
  | cons m ms ih =>
    unfold pack at h
    simp only [total, List.map_cons, List.sum_cons] at hfit
    rw [if_neg (by omega)] at h
    simp only [bind, Except.bind] at h
    cases hm : mergeKvs req m.query with
    | error e => rw [hm] at h; cases h
    | ok d =>
      rw [hm] at h
      exact ih (est + m.size) d (by simp only [total]; omega) h

/-- C22: after an update, every command is known by the last answer that mentioned it, or else as it was known before; what
no answer mentions is untouched. -/
theorem C22_answers (env : Env) (req : List (String × Json)) (w w' : W) (h : modularUpdate env req w = (.ok (), w')) :
    ∃ ms requests answers, supportedOf w.dev w.dev.modules = .ok ms ∧
      pack w.dev.budget [] req (if Dict.has req "system" then 1024 else 0) ms = .ok requests ∧
      w'.sent = w.sent ++ nonEmpty requests ∧ answers.length = (nonEmpty requests).length ∧
      (∀ i (hi : i < answers.length), env.answer (w.sent ++ (nonEmpty requests).take (i + 1)) = .ok (.obj answers[i])) ∧
      ((∀ a ∈ answers, Proper (.obj a)) → ∀ t c, known w'.dev.lastUpdate t c = (latest answers t c).or (known w.dev.lastUpdate t c)) ∧
      (∀ t, (∀ a ∈ answers, ∀ kv ∈ a, kv.1 = t → ∀ v, kv.2 ≠ .obj v) →
        Dict.get? w'.dev.lastUpdate t = Dict.get? w.dev.lastUpdate t) := by
  unfold modularUpdate at h
  rw [PyM.bind_ok (PyM.get_apply w)] at h
  obtain ⟨ms, w1, e1, h⟩ := PyM.bind_eq_ok h
  rw [PyM.lift_apply] at e1
  obtain ⟨h1, rfl⟩ := Prod.mk.inj e1
  obtain ⟨requests, w2, e2, h⟩ := PyM.bind_eq_ok h
  rw [PyM.lift_apply] at e2
  obtain ⟨h2, rfl⟩ := Prod.mk.inj e2
  obtain ⟨xs, w3, h3, h⟩ := PyM.bind_eq_ok h
  obtain ⟨upd, w4, e4, h⟩ := PyM.bind_eq_ok h
  rw [PyM.lift_apply] at e4
  obtain ⟨h4, rfl⟩ := Prod.mk.inj e4
  obtain ⟨_, w5, e5, h⟩ := PyM.bind_eq_ok h
  rw [PyM.modify_apply] at e5
  obtain ⟨-, rfl⟩ := Prod.mk.inj e5
  have hset : w'.sent = w3.sent ∧ w'.dev.lastUpdate = upd := by
    unfold setSupported at h
    rw [PyM.bind_ok (PyM.get_apply _)] at h
    simp only at h
    cases hs : w3.dev.supported with
    | some _ => rw [hs] at h; cases h; exact ⟨rfl, rfl⟩
    | none =>
      rw [hs] at h
      obtain ⟨s, w6, h6, h7⟩ := PyM.bind_eq_ok h
      rw [PyM.lift_apply] at h6
      obtain ⟨-, rfl⟩ := Prod.mk.inj h6
      rw [PyM.modify_apply] at h7
      obtain ⟨-, rfl⟩ := Prod.mk.inj h7
      exact ⟨rfl, rfl⟩
  obtain ⟨d1, d2, d3, d4⟩ := queryAll_ok env requests _ w3 xs h3
  obtain ⟨answers, rfl⟩ := mergeResponses_dicts xs _ _ h4
  refine ⟨ms, requests, answers, h1, h2, by rw [hset.1, d2], by simpa using d3, ?_, ?_, ?_⟩
  · intro i hi
    have := d4 i (by simpa using hi)
    simpa using this
  · intro hp t c
    rw [hset.2]
    exact mergeResponses_known answers _ upd h4 hp t c
  · intro t hn
    rw [hset.2]
    exact mergeResponses_other answers _ upd h4 t hn

/-! ## C53 -/

theorem setSupported_keeps (w w' : W) (r : Except Exc Unit) (h : setSupported w = (r, w')) :
    w'.sent = w.sent ∧ w'.dev.lastUpdate = w.dev.lastUpdate ∧ w'.dev.sysInfo = w.dev.sysInfo := by
  unfold setSupported at h
  rw [PyM.bind_ok (PyM.get_apply _)] at h
  cases hs : w.dev.supported with
  | some _ => rw [hs] at h; cases h; exact ⟨rfl, rfl, rfl⟩
  | none =>
    rw [hs] at h
    cases hq : supportedOf w.dev w.dev.modules with
    | error e => simp only [hq] at h; cases h; exact ⟨rfl, rfl, rfl⟩
    | ok s => simp only [hq] at h; cases h; exact ⟨rfl, rfl, rfl⟩

/-- A request of the modular update fails. -/
theorem modular_failed (env : Env) (req : List (String × Json)) (w w' : W) (e : Exc)
    (h : modularUpdate env req w = (.error e, w')) (hs : env.answer w'.sent = .error e) :
    w'.dev.lastUpdate = w.dev.lastUpdate ∧ w'.dev.sysInfo = w.dev.sysInfo := by
  unfold modularUpdate at h
  rw [PyM.bind_ok (PyM.get_apply w)] at h
  rcases PyM.bind_eq_error h with h1 | ⟨ms, w1, e1, h⟩
  · rw [PyM.lift_apply] at h1
    obtain ⟨-, rfl⟩ := Prod.mk.inj h1
    exact ⟨rfl, rfl⟩
  rw [PyM.lift_apply] at e1
  obtain ⟨h1, rfl⟩ := Prod.mk.inj e1
  rcases PyM.bind_eq_error h with h2 | ⟨requests, w2, e2, h⟩
  · rw [PyM.lift_apply] at h2
    obtain ⟨-, rfl⟩ := Prod.mk.inj h2
    exact ⟨rfl, rfl⟩
  rw [PyM.lift_apply] at e2
  obtain ⟨h2, rfl⟩ := Prod.mk.inj e2
  rcases PyM.bind_eq_error h with h3 | ⟨xs, w3, h3, h⟩
  · rw [(queryAll_error env requests _ _ _ h3).1]
    exact ⟨rfl, rfl⟩
  obtain ⟨d1, d2, d3, d4⟩ := queryAll_ok env requests _ w3 xs h3
  rcases PyM.bind_eq_error h with h4 | ⟨upd, w4, e4, h⟩
  · rw [PyM.lift_apply] at h4
    obtain ⟨-, rfl⟩ := Prod.mk.inj h4
    rw [d1]
    exact ⟨rfl, rfl⟩
  rw [PyM.lift_apply] at e4
  obtain ⟨h4, rfl⟩ := Prod.mk.inj e4
  rcases PyM.bind_eq_error h with h5 | ⟨_, w5, e5, h⟩
  · cases h5
  rw [PyM.modify_apply] at e5
  obtain ⟨-, rfl⟩ := Prod.mk.inj e5
  obtain ⟨k1, k2, k3⟩ := setSupported_keeps _ _ _ h
  cases hn : nonEmpty requests with
  | nil =>
    rw [hn] at d3
    have : xs = [] := List.length_eq_zero_iff.mp d3
    subst this
    cases h4
    rw [k2, k3, d1]
    exact ⟨rfl, rfl⟩
  | cons r rs =>
    -- the last request was answered
    have hlen : xs.length = rs.length + 1 := by rw [d3, hn]; rfl
    have := d4 rs.length (by omega)
    rw [hn] at this
    have htake : (r :: rs).take (rs.length + 1) = r :: rs := List.take_length (l := r :: rs)
    rw [htake, ← hn, ← d2] at this
    rw [k1] at hs
    simp only at hs
    rw [this] at hs
    cases hs

/-- The end of an update. -/
def lastPart (env : Env) : PyM W Unit := do
  let w ← PyM.getS
  setSysInfo w.dev.lastUpdate
  let w ← PyM.getS
  PyM.lift (env.hooks w.dev)

theorem update_eq (env : Env) : update env = (do
    initialUpdate env
    initModules env
    modularUpdate env sysInfoQuery
    lastPart env) := rfl

theorem setSysInfo_sent (info : List (String × Json)) :
    PyM.Rel (fun a b : W => b.sent = a.sent ∧ b.dev.lastUpdate = a.dev.lastUpdate) (setSysInfo info) := by
  have hrefl : ∀ s : W, s.sent = s.sent ∧ s.dev.lastUpdate = s.dev.lastUpdate := fun _ => ⟨rfl, rfl⟩
  have htrans : ∀ a b c : W, b.sent = a.sent ∧ b.dev.lastUpdate = a.dev.lastUpdate →
      c.sent = b.sent ∧ c.dev.lastUpdate = b.dev.lastUpdate → c.sent = a.sent ∧ c.dev.lastUpdate = a.dev.lastUpdate :=
    fun _ _ _ h1 h2 => ⟨h2.1.trans h1.1, h2.2.trans h1.2⟩
  unfold setSysInfo
  exact PyM.Rel.bind htrans (PyM.Rel.lift hrefl _) fun sys => PyM.Rel.bind htrans (fun s => ⟨rfl, rfl⟩) fun _ =>
    PyM.Rel.bind htrans (PyM.Rel.lift hrefl _) fun f => PyM.Rel.lift hrefl _

theorem lastPart_sent (env : Env) : PyM.Rel (fun a b : W => b.sent = a.sent) (lastPart env) := by
  have hrefl : ∀ s : W, s.sent = s.sent := fun _ => rfl
  have htrans : ∀ a b c : W, b.sent = a.sent → c.sent = b.sent → c.sent = a.sent := fun _ _ _ h1 h2 => h2.trans h1
  exact PyM.Rel.bind htrans (PyM.Rel.get hrefl) fun w => PyM.Rel.bind htrans (fun s => (setSysInfo_sent _ s).1) fun _ =>
    PyM.Rel.bind htrans (PyM.Rel.get hrefl) fun w => PyM.Rel.lift hrefl _

/-- Once the requests of the modular update are answered, the last answer was no error. -/
theorem answered (env : Env) {w w2 w' : W} {e : Exc} {r : Except Exc Unit} (h1 : modularUpdate env sysInfoQuery w = (.ok (), w2))
    (h : lastPart env w2 = (r, w')) (hs : env.answer w'.sent = .error e) : False := by
  obtain ⟨ms, requests, answers, -, hpk, q1, q2, q3, -⟩ := C22_answers env _ _ _ h1
  have hsent' : w'.sent = w2.sent := by
    have := lastPart_sent env w2
    rw [h] at this
    exact this
  have hne : nonEmpty requests ≠ [] := pack_sends hpk (by simp [sysInfoQuery])
  obtain ⟨n, hlen⟩ : ∃ n, (nonEmpty requests).length = n + 1 := by
    cases hx : nonEmpty requests with
    | nil => exact absurd hx hne
    | cons a l => exact ⟨l.length, rfl⟩
  have := q3 n (by omega)
  rw [← hlen, List.take_length, ← q1, ← hsent', hs] at this
  cases this

theorem initModules_keeps (env : Env) (w : W) : ∃ w1, initModules env w = (.ok (), w1) ∧ w1.sent = w.sent ∧
    w1.dev.lastUpdate = w.dev.lastUpdate ∧ w1.dev.sysInfo = w.dev.sysInfo := by
  refine ⟨_, rfl, ?_⟩
  simp only
  split <;> exact ⟨rfl, rfl, rfl⟩

/-- C53: when the last request of an update fails, the error is raised and everything known before is still there. -/
theorem C53_failed_update (env : Env) (w w' : W) (e : Exc) (h : update env w = (.error e, w'))
    (hl : w.dev.lastUpdate ≠ []) (hs : env.answer w'.sent = .error e) :
    w'.dev.lastUpdate = w.dev.lastUpdate ∧ w'.dev.sysInfo = w.dev.sysInfo := by
  have hl' : w.dev.lastUpdate.isEmpty = false := by
    cases hx : w.dev.lastUpdate with
    | nil => exact absurd hx hl
    | cons _ _ => rfl
  have hi : initialUpdate env w = (.ok (), w) := by
    unfold initialUpdate
    rw [PyM.bind_ok (PyM.get_apply w), hl']
    rfl
  rw [update_eq, PyM.bind_ok hi] at h
  obtain ⟨w1, hw1, hsent, hdev⟩ := initModules_keeps env w
  rw [PyM.bind_ok hw1] at h
  rw [← hdev.1, ← hdev.2]
  rcases PyM.bind_eq_error h with h1 | ⟨_, w2, h1, h⟩
  · exact modular_failed env _ _ _ _ h1 hs
  · exact (answered env h1 h hs).elim

/-- C53: a first update that gets no answer leaves the device as it was; one that fails later knows the first answer, and
nothing else. -/
theorem C53_first_update (env : Env) (w w' : W) (e : Exc) (h : update env w = (.error e, w')) (hl : w.dev.lastUpdate = [])
    (hs : env.answer w'.sent = .error e) :
    w'.dev = w.dev ∨ env.answer (w.sent ++ [.obj sysInfoQuery]) = .ok (.obj w'.dev.lastUpdate) := by
  have hl' : w.dev.lastUpdate.isEmpty = true := by rw [hl]; rfl
  have hi : initialUpdate env w = (do let r ← query env (.obj sysInfoQuery); firstAnswer r : PyM W Unit) w := by
    unfold initialUpdate
    rw [PyM.bind_ok (PyM.get_apply w), if_pos hl']
  have hq : query env (.obj sysInfoQuery) w =
      (env.answer (w.sent ++ [.obj sysInfoQuery]), { w with sent := w.sent ++ [.obj sysInfoQuery] }) := by
    unfold query
    simp only [PyM.bind_apply, PyM.modify_apply, PyM.get_apply, PyM.lift_apply]
  rw [update_eq] at h
  rcases PyM.bind_eq_error h with h1 | ⟨_, w1, h1, h⟩
  · rw [hi] at h1
    rcases PyM.bind_eq_error h1 with h2 | ⟨r, w2, h2, h3⟩
    · rw [hq] at h2
      obtain ⟨-, rfl⟩ := Prod.mk.inj h2
      exact Or.inl rfl
    · rw [hq] at h2
      obtain ⟨h4, rfl⟩ := Prod.mk.inj h2
      cases r with
      | obj kvs =>
        right
        change (PyM.modifyS _ >>= fun _ => setSysInfo kvs) _ = _ at h3
        rw [PyM.bind_ok (PyM.modify_apply _ _)] at h3
        have := (setSysInfo_sent kvs { sent := w.sent ++ [Json.obj sysInfoQuery], dev := { w.dev with lastUpdate := kvs } }).2
        rw [h3] at this
        simp only at this
        rw [this, h4]
      | null | bool _ | num _ | str _ | arr _ => cases h3; exact Or.inl rfl
  · right
    rw [hi] at h1
    obtain ⟨r, w2, h2, h3⟩ := PyM.bind_eq_ok h1
    rw [hq] at h2
    obtain ⟨h4, rfl⟩ := Prod.mk.inj h2
    cases r with
    | obj kvs =>
      change (PyM.modifyS _ >>= fun _ => setSysInfo kvs) _ = _ at h3
      rw [PyM.bind_ok (PyM.modify_apply _ _)] at h3
      have h5 := (setSysInfo_sent kvs { sent := w.sent ++ [Json.obj sysInfoQuery], dev := { w.dev with lastUpdate := kvs } }).2
      rw [h3] at h5
      simp only at h5
      obtain ⟨w3, hw3, hsent, hdev⟩ := initModules_keeps env w1
      rw [PyM.bind_ok hw3] at h
      rcases PyM.bind_eq_error h with h6 | ⟨_, w4, h6, h⟩
      · rw [(modular_failed env _ _ _ _ h6 hs).1, hdev.1, h5, h4]
      · exact (answered env h6 h hs).elim
    | null | bool _ | num _ | str _ | arr _ => cases h3

/-! ## C23 -/

theorem need_ok {x : Json} {key : String} {v : Json} (h : need x key = .ok v) : ∃ kvs, x = .obj kvs ∧ Dict.get? kvs key = some v := by
  unfold need at h
  simp only [bind, Except.bind] at h
  cases hc : contains x key with
  | error e => rw [hc] at h; cases h
  | ok b =>
    rw [hc] at h
    cases b with
    | false => cases h
    | true =>
      simp only [if_true] at h
      unfold item at h
      cases x with
      | obj kvs =>
        simp only at h
        cases hg : Dict.get? kvs key with
        | none => rw [hg] at h; cases h
        | some w => rw [hg] at h; cases h; exact ⟨kvs, rfl, hg⟩
      | null | bool _ | num _ | str _ | arr _ => cases h

theorem need_obj (kvs : List (String × Json)) (key : String) :
    need (.obj kvs) key = match Dict.get? kvs key with | some v => .ok v | none => .error .kasa := by
  unfold need contains item
  simp only [bind, Except.bind]
  by_cases h : Dict.has kvs key = true
  · rw [if_pos h]; rw [Dict.has, Option.isSome_iff_exists] at h; obtain ⟨v, h⟩ := h; simp only [h]
  · rw [if_neg h]; rw [Dict.has] at h; simp only [Option.not_isSome_iff_eq_none.mp h]

theorem refuse_obj (kvs : List (String × Json)) :
    refuseError (.obj kvs) = match Dict.get? kvs "err_code" with
      | none => .ok ()
      | some c => if nonZero c then .error .kasa else .ok () := by
  unfold refuseError contains item
  simp only [bind, Except.bind]
  by_cases h : Dict.has kvs "err_code" = true
  · rw [if_pos h]; rw [Dict.has, Option.isSome_iff_exists] at h; obtain ⟨v, h⟩ := h; simp only [h]; rfl
  · rw [if_neg h]; rw [Dict.has] at h; simp only [Option.not_isSome_iff_eq_none.mp h]; rfl

theorem refuse_noError (d : List (String × Json)) (hd : NoError d) : refuseError (.obj d) = .ok () := by
  rw [refuse_obj]
  rcases hd with hd | hd | hd
  · rw [hd]
  · rw [hd]; rfl
  · rw [hd]; rfl

theorem noError_of (d : List (String × Json)) (h : refuseError (.obj d) = .ok ()) : NoError d := by
  rw [refuse_obj] at h
  unfold NoError
  cases hg : Dict.get? d "err_code" with
  | none => exact Or.inl rfl
  | some c =>
    rw [hg] at h
    simp only at h
    by_cases hc : nonZero c = true
    · rw [if_pos hc] at h; cases h
    · simp only [nonZero, Bool.not_eq_true', Bool.not_eq_false, Bool.or_eq_true, decide_eq_true_eq] at hc
      rcases hc with rfl | rfl
      · exact Or.inr (Or.inl rfl)
      · exact Or.inr (Or.inr rfl)

/-- C23: an accepted command returns its result. -/
theorem C23_accepted (send : Json → Except Exc Json) (target cmd : String) (arg ids : Option Json) (response y : Json)
    (hs : send (createRequest target cmd arg ids) = .ok response) (hp : Proper response)
    (ha : Accepted target cmd response y) :
    ∃ z, queryHelper send target cmd arg ids = .ok (.obj z) ∧ ∀ k, y.get? k = Dict.get? z k := by
  cases ha with
  | mk r t x y h hx ht hc hy =>
    have hw : Dict.WF x := by
      cases hp with
      | obj _ _ h1 =>
        have h2 := h1 _ (Dict.mem_of_get? h)
        cases h2 with
        | obj _ _ h3 =>
          have h4 := h3 _ (Dict.mem_of_get? hx)
          cases h4
          assumption
    have ok := refuse_noError
    refine ⟨Dict.erase x "err_code", ?_, ?_⟩
    · unfold queryHelper unwrap
      rw [hs]
      simp only [bind, Except.bind, need_obj, h, hx, ok t ht, ok x hc]
      rfl
    · intro k
      show Dict.get? y k = _
      rw [hy]
      by_cases hk : k = "err_code"
      · subst hk
        rw [if_pos rfl, Dict.get?_erase_self hw]
      · rw [if_neg hk, Dict.get?_erase_ne _ (fun h => hk h.symm)]

/-- C23: a refused command raises `KasaException`. -/
theorem C23_refused_partial (send : Json → Except Exc Json) (target cmd : String) (arg ids : Option Json) (response : Json)
    (hs : send (createRequest target cmd arg ids) = .ok response) (hr : Refused target cmd response) :
    queryHelper send target cmd arg ids = .error .kasa := by
  have code : ∀ (t : List (String × Json)) (c : Int), Dict.get? t "err_code" = some (.num c) → c ≠ 0 →
      refuseError (.obj t) = .error .kasa := by
    intro t c h hc
    rw [refuse_obj, h]
    simp [nonZero, hc]
  have other : ∀ t : List (String × Json), refuseError (.obj t) = .ok () ∨ refuseError (.obj t) = .error .kasa := by
    intro t
    rw [refuse_obj]
    cases Dict.get? t "err_code" with
    | none => exact Or.inl rfl
    | some c =>
      simp only
      split
      · exact Or.inr rfl
      · exact Or.inl rfl
  unfold queryHelper unwrap
  rw [hs]
  simp only [bind, Except.bind]
  cases hr with
  | noTarget r h => simp only [need_obj, h]
  | targetError r t c h hc hn => simp only [need_obj, h, code t c hc hn]
  | noCommand r t h hc =>
    simp only [need_obj, h]
    rcases other t with ho | ho
    · simp only [ho, hc]
    · simp only [ho]
  | commandError r t x c h hx hc hn =>
    simp only [need_obj, h]
    rcases other t with ho | ho
    · simp only [ho, hx, code x c hc hn]
    · simp only [ho]

/-- C23: any failure of the transport raises `KasaException`; a cancellation stays one. -/
theorem C23_transport (send : Json → Except Exc Json) (target cmd : String) (arg ids : Option Json) (e : Exc)
    (hs : send (createRequest target cmd arg ids) = .error e) :
    queryHelper send target cmd arg ids = .error (if e.isException then .kasa else e) := by
  unfold queryHelper
  rw [hs]

/-- C23: the request names the target, the command with its argument or `{}`, and the children if any. -/
theorem C23_request (target cmd : String) (arg ids : Option Json) (ht : target ≠ "context") :
    (createRequest target cmd arg ids).get? target = some (.obj [(cmd, arg.getD (.obj []))]) ∧
    (createRequest target cmd arg ids).get? "context" = ids.map (fun i => .obj [("child_ids", i)]) := by
  unfold createRequest
  cases ids with
  | none =>
    simp only [Json.get?, Dict.get?_cons, Dict.get?_nil, Option.map_none]
    exact ⟨if_pos trivial, if_neg ht⟩
  | some i =>
    simp only [Json.get?, Option.map_some]
    exact ⟨Dict.get?_set_self _ _ _, by rw [Dict.get?_set_ne _ _ ht]; rfl⟩

/-- C23: a dict comes back from a command only if the device accepted the command with that result. -/
theorem C23_only_accepted (send : Json → Except Exc Json) (target cmd : String) (arg ids : Option Json)
    (y : List (String × Json)) (h : queryHelper send target cmd arg ids = .ok (.obj y)) (hp : ∀ r, send (createRequest target cmd arg ids) = .ok r → Proper r) :
    ∃ response, send (createRequest target cmd arg ids) = .ok response ∧ Accepted target cmd response (.obj y) := by
  cases hs : send (createRequest target cmd arg ids) with
  | error e => rw [C23_transport _ _ _ _ _ _ hs] at h; cases h
  | ok response =>
    refine ⟨response, rfl, ?_⟩
    unfold queryHelper unwrap at h
    rw [hs] at h
    simp only [bind, Except.bind] at h
    cases h1 : need response target with
    | error e => rw [h1] at h; cases h
    | ok t =>
      rw [h1] at h
      simp only at h
      cases h2 : refuseError t with
      | error e => rw [h2] at h; cases h
      | ok u =>
        rw [h2] at h
        simp only at h
        cases h3 : need t cmd with
        | error e => rw [h3] at h; cases h
        | ok x =>
          rw [h3] at h
          simp only at h
          cases h4 : refuseError x with
          | error e => rw [h4] at h; cases h
          | ok u' =>
            rw [h4] at h
            simp only [pure, Except.pure] at h
            obtain ⟨r, rfl, hr⟩ := need_ok h1
            obtain ⟨t, rfl, ht⟩ := need_ok h3
            cases x with
            | obj x =>
              have hw : Dict.WF x := by
                cases hp _ hs with
                | obj _ _ h1 =>
                  have h2 := h1 _ (Dict.mem_of_get? hr)
                  cases h2 with
                  | obj _ _ h3 =>
                    have h4 := h3 _ (Dict.mem_of_get? ht)
                    cases h4
                    assumption
              refine .mk r t x y hr ht (noError_of t h2) (noError_of x h4) ?_
              intro k
              cases h
              by_cases hk : k = "err_code"
              · subst hk
                rw [if_pos rfl, Dict.get?_erase_self hw]
              · rw [if_neg hk, Dict.get?_erase_ne _ (fun h => hk h.symm)]
            | null | bool _ | num _ | str _ | arr _ => cases h

/-- C23 fails for answers of another shape: if what stands under the target, or under the command, is no dict (a number, say),
a `TypeError` leaves the library. -/
theorem C23_malformed (send : Json → Except Exc Json) (target cmd : String) (arg ids : Option Json) (n : Int)
    (hs : send (createRequest target cmd arg ids) = .ok (.obj [(target, .num n)]) ∨
      target ≠ cmd ∧ cmd ≠ "err_code" ∧ send (createRequest target cmd arg ids) = .ok (.obj [(target, .obj [(cmd, .num n)])])) :
    queryHelper send target cmd arg ids = .error (.other "TypeError") := by
  rcases hs with hs | ⟨-, hc, hs⟩
  · unfold queryHelper unwrap
    rw [hs]
    simp only [bind, Except.bind, need_obj, Dict.get?_cons, if_true]
    rfl
  · unfold queryHelper unwrap
    rw [hs]
    simp only [bind, Except.bind, need_obj, refuse_obj, Dict.get?_cons, if_true, if_neg hc, Dict.get?_nil]
    rfl

/-! ## Examples -/

/-- A device that answers the system information and refuses the rest. -/
def demoSend : Json → Except Exc Json := fun _ =>
  .ok (.obj [("system", .obj [("get_sysinfo", .obj [("alias", .str "lamp"), ("err_code", .num 0)]),
    ("reboot", .obj [("err_code", .num (-1))])]), ("emeter", .obj [("err_code", .num (-1)), ("err_msg", .str "no")])])

example : queryHelper demoSend "system" "get_sysinfo" none none = .ok (.obj [("alias", .str "lamp")]) := by rfl
example : queryHelper demoSend "system" "reboot" none none = .error .kasa := by rfl
example : queryHelper demoSend "emeter" "get_realtime" none none = .error .kasa := by rfl
example : queryHelper demoSend "time" "get_time" none none = .error .kasa := by rfl
example : createRequest "system" "set_relay_state" (some (.obj [("state", .num 1)])) (some (.arr [.str "00"])) =
    .obj [("context", .obj [("child_ids", .arr [.str "00"])]), ("system", .obj [("set_relay_state", .obj [("state", .num 1)])])] := by
  rfl

/-- Two modules that ask the same target, and one with a big answer. -/
def demoMods : List Mod :=
  [⟨"schedule", 2048, [("schedule", .obj [("get_realtime", .obj []), ("get_daystat", .obj [("month", .num 1)])])], none⟩,
   ⟨"schedule", 256, [("schedule", .obj [("get_rules", .obj []), ("get_next_action", .obj [])])], none⟩,
   ⟨"time", 256, [("time", .obj [("get_time", .obj [])])], none⟩]

example : pack 4096 [] sysInfoQuery 1024 demoMods = .ok
    [[("system", .obj [("get_sysinfo", .obj [])]),
      ("schedule", .obj [("get_realtime", .obj []), ("get_daystat", .obj [("month", .num 1)]), ("get_rules", .obj []),
        ("get_next_action", .obj [])]),
      ("time", .obj [("get_time", .obj [])])]] := by rfl
example : pack 3200 [] sysInfoQuery 1024 demoMods = .ok
    [[("system", .obj [("get_sysinfo", .obj [])]),
      ("schedule", .obj [("get_realtime", .obj []), ("get_daystat", .obj [("month", .num 1)])])],
     [("schedule", .obj [("get_rules", .obj []), ("get_next_action", .obj [])]), ("time", .obj [("get_time", .obj [])])]] := by rfl

/-- A device of which the third answer is lost. -/
def demoEnv : Env :=
  { answer := fun sent => if sent.length = 3 then .error .timeout
      else .ok (.obj [("system", .obj [("get_sysinfo", .obj [("alias", .str "lamp"), ("relay_state", .num 1)])]),
        ("time", .obj [("get_time", .obj [("err_code", .num 0)])]), ("schedule", .obj [("err_code", .num (-1))])]),
    modules := fun _ => demoMods,
    hooks := fun _ => .ok () }

/-- A device that knows something. -/
def demoDev : W :=
  { dev := { lastUpdate := [("system", .obj [("get_sysinfo", .obj [("alias", .str "lamp"), ("relay_state", .num 0)])])],
             sysInfo := .obj [("alias", .str "lamp"), ("relay_state", .num 0)], modules := demoMods, supported := none,
             budget := 3200 },
    sent := [.null] }

example : (update demoEnv demoDev).1 = .error .timeout := by rfl
example : (update demoEnv demoDev).2.dev.lastUpdate = demoDev.dev.lastUpdate :=
  (C53_failed_update demoEnv demoDev _ .timeout rfl (by decide) rfl).1
example : (update demoEnv { demoDev with sent := [.null, .null, .null] }).1 = .ok () := by rfl
example : Dict.get? (update demoEnv { demoDev with sent := [.null, .null, .null] }).2.dev.lastUpdate "system" =
    some (.obj [("get_sysinfo", .obj [("alias", .str "lamp"), ("relay_state", .num 1)])]) := by rfl
-- the second request of a first update is lost
example : (update demoEnv { demoDev with dev := { demoDev.dev with lastUpdate := [], modules := [] } }).1 = .error .timeout := by rfl

example : ((supportedOf { demoDev.dev with lastUpdate := [("emeter", .obj [("err_code", .num (-1))])] }
    [⟨"emeter", 256, [("emeter", .obj [])], none⟩, ⟨"time", 256, [("time", .obj [])], none⟩]).toOption.map (·.map Mod.target)) =
    some ["time"] := by decide +kernel

end Kasa.Iot
