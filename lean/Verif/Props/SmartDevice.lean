import Verif.Lemmas.SmartDevice
import Verif.Props.SmartModule
/-!
# C31, C33-C36: updating a SMART device and its children
-/

namespace Kasa.SmartDevice

open Smart (Entry)
open PyM
open SmartModule (State Kind fresh disabled shouldUpdate postUpdate queried step Event)

/-! ## C33: one failing module query does not lose the others -/

/-- The state of the device itself when its modules are asked for, in an update after the first. -/
def ready (env : Env) (w : World) : Local :=
  ⟨{ w.dev with time := some (env.clock w.net.ticks) }, none, { w.net with ticks := w.net.ticks + 1 }⟩

theorem request_ready (env : Env) (first : Bool) (t : Rat) (w : World) : requestOf first t (ready env w).dev = requestOf first t w.dev := rfl

theorem marked_ready (env : Env) (t : Rat) (w : World) : marked false t (ready env w) = ready env w := by
  unfold marked
  rw [mark_false]

theorem own_ready (env : Env) (w : World) (u : Rat) (h : w.dev.time = some u) :
    ownUpdate env ⟨w.dev, none, w.net⟩ = modularUpdate env false (env.clock w.net.ticks) (ready env w) :=
  ownUpdate_later env _ u h

/-- What is asked for in an update: the queries of exactly those modules that C31 says are queried. -/
theorem C33_request (t : Rat) (d : Dev) (k : String) :
    k ∈ Dict.keys (requestOf false t d) ↔
      ∃ n m, (n, m) ∈ d.mods ∧ queried ⟨m.cls.interval, d.hubChild⟩ m.sched t = true ∧ k ∈ Dict.keys m.query := by
  rw [request_keys]
  constructor
  · rintro ⟨n, m, h1, h2, h3⟩
    refine ⟨n, m, h1, ?_, h3⟩
    unfold due wanted at h2
    unfold queried
    simp only [Bool.false_or, Bool.false_and, Bool.not_false, Bool.and_true, Bool.and_eq_true] at h2
    rw [Bool.and_eq_true]
    exact ⟨h2.1.1, h2.2⟩
  · rintro ⟨n, m, h1, h2, h3⟩
    refine ⟨n, m, h1, ?_, h3⟩
    unfold queried at h2
    rw [Bool.and_eq_true] at h2
    unfold due wanted
    simp only [Bool.false_or, Bool.false_and, Bool.not_false, Bool.and_true, Bool.and_eq_true]
    refine ⟨⟨h2.1, ?_⟩, h2.2⟩
    cases hq : m.query with
    | nil => rw [hq] at h3; simp [Dict.keys] at h3
    | cons a b => rfl

/-- C33: when the combined query of an update raises, each method is asked for alone, in order; whatever happens afterwards, the
device then holds for each of these methods its outcome, and for all others what it held before. -/
theorem C33_fallback (env : Env) (w : World) (kids : Bool) (u : Rat) (hold : w.dev.time = some u) (hwf : Dict.WF w.dev.mods)
    (req : Request) (hreq : req = requestOf false (env.clock w.net.ticks) w.dev) (e : Exc)
    (hf : env.answer w.net.asked.length w.dev.id req = .error e) (he : e.isException = true)
    (hx : ∀ (i : Nat) (p : String × Json), req[i]? = some p →
      ∀ e, env.answer (w.net.asked.length + 1 + i) w.dev.id [p] = .error e → e.isException = true) :
    (∃ more, (update env true kids w).2.net.asked = w.net.asked ++ (w.dev.id, req) :: req.map (fun p => (w.dev.id, [p])) ++ more) ∧
    (∀ (i : Nat) (p : String × Json), req[i]? = some p →
      Dict.get? (update env true kids w).2.dev.last p.1 = some (outcome (env.answer (w.net.asked.length + 1 + i) w.dev.id [p]) p.1)) ∧
    (∀ k, k ∉ Dict.keys req → Dict.get? (update env true kids w).2.dev.last k = Dict.get? w.dev.last k) := by
  subst hreq
  obtain ⟨hrest, _⟩ := update_own env kids w
  rw [own_ready env w u hold] at hrest
  obtain ⟨r, hr, hrw, hno, hyes⟩ := askModules_fallback env (requestOf false (env.clock w.net.ticks) w.dev) (request_wf _ _ _) (ready env w) e hf he hx
  have hr' : askModules env (requestOf false (env.clock w.net.ticks) (ready env w).dev) (marked false (env.clock w.net.ticks) (ready env w)) =
      (.ok r, asked (ready env w) (requestOf false (env.clock w.net.ticks) w.dev :: (requestOf false (env.clock w.net.ticks) w.dev).map (fun p => [p]))) := by
    rw [marked_ready, request_ready]
    exact hr
  obtain ⟨hl, hn⟩ := modularUpdate_last env false (env.clock w.net.ticks) (ready env w) _ r hwf hr'
  have hlast := hrest.last.trans hl
  refine ⟨?_, ?_, ?_⟩
  · obtain ⟨⟨more, hm⟩, _⟩ := hrest.net
    refine ⟨more, ?_⟩
    rw [hm]
    change (modularUpdate env false (env.clock w.net.ticks) (ready env w)).2.net.asked ++ more = _
    rw [hn]
    simp [asked, ready, Function.comp_def]
  · intro i p hp
    rw [hlast, Dict.get?_update hrw, hyes i p hp]
    rfl
  · intro k hk
    rw [hlast, Dict.get?_update hrw, hno k hk]
    rfl

/-- C33: when the combined query works, the device holds its answers. -/
theorem C33_combined (env : Env) (w : World) (kids : Bool) (u : Rat) (hold : w.dev.time = some u) (hwf : Dict.WF w.dev.mods)
    (resp : Answers) (hresp : Dict.WF resp)
    (hok : env.answer w.net.asked.length w.dev.id (requestOf false (env.clock w.net.ticks) w.dev) = .ok resp) (k : String) :
    Dict.get? (update env true kids w).2.dev.last k = (Dict.get? resp k).or (Dict.get? w.dev.last k) := by
  obtain ⟨hrest, _⟩ := update_own env kids w
  rw [own_ready env w u hold] at hrest
  have hr' : askModules env (requestOf false (env.clock w.net.ticks) (ready env w).dev) (marked false (env.clock w.net.ticks) (ready env w)) =
      (.ok resp, asked (ready env w) [requestOf false (env.clock w.net.ticks) w.dev]) := by
    rw [marked_ready, request_ready]
    exact askModules_ok env _ _ _ hok
  obtain ⟨hl, _⟩ := modularUpdate_last env false (env.clock w.net.ticks) (ready env w) _ resp hwf hr'
  rw [hrest.last.trans hl, Dict.get?_update hresp]
  rfl

/-- The methods of a module that is queried are in the request. -/
theorem module_in_request (t : Rat) (d : Dev) (n : String) (m : Mod) (hm : (n, m) ∈ d.mods)
    (hq : queried ⟨m.cls.interval, d.hubChild⟩ m.sched t = true) (k : String) (hk : k ∈ Dict.keys m.query) :
    ∃ (i : Nat) (p : String × Json), (requestOf false t d)[i]? = some p ∧ p.1 = k := by
  have := (C33_request t d k).mpr ⟨n, m, hm, hq, hk⟩
  unfold Dict.keys at this
  obtain ⟨p, hp, rfl⟩ := List.mem_map.mp this
  obtain ⟨i, hi⟩ := List.getElem?_of_mem hp
  exact ⟨i, p, hi, rfl⟩

/-- C33: after the modules were asked for one by one, a module that was queried reads normally if each of its methods worked: the
answer itself if it has one method, the answers by method if it has several; and it raises if one of them failed that is not
optional. -/
theorem C33_reading (env : Env) (w : World) (kids : Bool) (u : Rat) (hold : w.dev.time = some u) (hwf : Dict.WF w.dev.mods)
    (hlast : Dict.WF w.dev.last)
    (req : Request) (hreq : req = requestOf false (env.clock w.net.ticks) w.dev) (e : Exc)
    (hf : env.answer w.net.asked.length w.dev.id req = .error e) (he : e.isException = true)
    (hx : ∀ (i : Nat) (p : String × Json), req[i]? = some p →
      ∀ e, env.answer (w.net.asked.length + 1 + i) w.dev.id [p] = .error e → e.isException = true)
    (n : String) (m : Mod) (hm : (n, m) ∈ w.dev.mods) (hq : queried ⟨m.cls.interval, w.dev.hubChild⟩ m.sched (env.clock w.net.ticks) = true)
    (hkeys : Dict.WF m.query) (optional : List String)
    (alone : String → Entry) (halone : ∀ (i : Nat) (p : String × Json), req[i]? = some p →
      alone p.1 = outcome (env.answer (w.net.asked.length + 1 + i) w.dev.id [p]) p.1) :
    (∀ k, Dict.keys m.query = [k] → ∀ v, alone k = .value v →
      SmartModule.data (Dict.keys m.query) optional (update env true kids w).2.dev.last none = .ok (.bare (.value v))) ∧
    ((Dict.keys m.query).length ≥ 2 → (∀ k ∈ Dict.keys m.query, ∃ v, alone k = .value v) →
      ∃ d, SmartModule.data (Dict.keys m.query) optional (update env true kids w).2.dev.last none = .ok (.dict d) ∧
        ∀ k, Dict.get? d k = if k ∈ Dict.keys m.query then some (alone k) else none) ∧
    ((∃ k ∈ Dict.keys m.query, k ∉ optional ∧ ∃ c, alone k = .error c) →
      ∃ c, SmartModule.data (Dict.keys m.query) optional (update env true kids w).2.dev.last none = .error (.device (some c))) := by
  obtain ⟨_, hyes, _⟩ := C33_fallback env w kids u hold hwf req hreq e hf he hx
  have hl : Dict.WF (update env true kids w).2.dev.last := by
    subst hreq
    obtain ⟨hrest, _⟩ := update_own env kids w
    rw [own_ready env w u hold] at hrest
    obtain ⟨r, hr, _⟩ := askModules_fallback env (requestOf false (env.clock w.net.ticks) w.dev) (request_wf _ _ _) (ready env w) e hf he hx
    obtain ⟨hl, _⟩ := modularUpdate_last env false (env.clock w.net.ticks) (ready env w) _ r hwf (by rw [marked_ready, request_ready]; exact hr)
    rw [hrest.last.trans hl]
    exact Dict.WF_update hlast
  generalize (update env true kids w).2.dev.last = last at hyes hl ⊢
  have hget : ∀ k ∈ Dict.keys m.query, Dict.get? last k = some (alone k) := by
    intro k hk
    obtain ⟨i, p, hp, rfl⟩ := module_in_request (env.clock w.net.ticks) w.dev n m hm hq k hk
    rw [← hreq] at hp
    rw [hyes i p hp, halone i p hp]
  have hhas : ∀ k ∈ Dict.keys m.query, Dict.has last k = true := fun k hk => by
    unfold Dict.has
    rw [hget k hk]
    rfl
  have hsrc : Dict.keys m.query ≠ [] → SmartModule.Source (Dict.keys m.query) last none last := by
    intro hne
    cases hkk : Dict.keys m.query with
    | nil => exact absurd hkk hne
    | cons a r => exact ⟨a, rfl, Or.inl ⟨hhas a (by rw [hkk]; exact List.mem_cons_self), rfl⟩⟩
  refine ⟨?_, ?_, ?_⟩
  · intro k hk v hv
    have hmem : k ∈ Dict.keys m.query := by rw [hk]; exact List.mem_cons_self
    have hg := hget k hmem
    rw [hv] at hg
    obtain ⟨d, _, h1, _, _⟩ := SmartModule.C45_answers_partial (Dict.keys m.query) optional last none last
      (hsrc (by rw [hk]; simp)) hl hkeys hhas (by
        intro k' hk' c hc
        rw [hk, List.mem_singleton] at hk'
        subst hk'
        rw [hg] at hc
        cases hc)
    exact h1 k hk _ hg rfl
  · intro hlen hall
    obtain ⟨d, hd, _, _, h3⟩ := SmartModule.C45_answers_partial (Dict.keys m.query) optional last none last
      (hsrc (by intro h0; rw [h0] at hlen; simp at hlen)) hl hkeys hhas (by
        intro k' hk' c hc
        obtain ⟨v, hv⟩ := hall k' hk'
        rw [hget k' hk', hv] at hc
        cases hc)
    refine ⟨d, h3 hlen, fun k => ?_⟩
    split
    · rename_i hk
      obtain ⟨v, hv⟩ := hall k hk
      exact (hd k _).mpr ⟨hk, hget k hk, by rw [hv]; rfl⟩
    · rename_i hk
      cases hg : Dict.get? d k with
      | none => rfl
      | some v => exact absurd ((hd k v).mp hg).1 hk
  · rintro ⟨k, hk, hko, c, hc⟩
    have hg := hget k hk
    rw [hc] at hg
    obtain ⟨k', c', _, _, _, h⟩ := SmartModule.C45_error (Dict.keys m.query) optional last none last
      (hsrc (List.ne_nil_of_mem hk)) hl k c hk hg hko
    exact ⟨c', h⟩

/-- C33: an update after the first raises `KasaException` if the device info is among what failed, and then before any module's
bookkeeping has changed; otherwise the device has the info that was answered, and the own part of the update ends normally unless a
module's hook is interrupted. -/
theorem C33_info (env : Env) (w : World) (kids : Bool) (u : Rat) (hold : w.dev.time = some u) (hwf : Dict.WF w.dev.mods) (resp : Answers) (l1 : Local)
    (hr : askModules env (requestOf false (env.clock w.net.ticks) w.dev) (ready env w) = (.ok resp, l1)) :
    ((∀ v, Dict.get? resp "get_device_info" = some (.value v) → v = .null) →
      (update env true kids w).1 = .error .kasa ∧ (update env true kids w).2.dev.mods = w.dev.mods ∧ (update env true kids w).2.dev.info = w.dev.info) ∧
    (∀ v, Dict.get? resp "get_device_info" = some (.value v) → v ≠ .null → (update env true kids w).2.dev.info = v) := by
  obtain ⟨hrest, herr⟩ := update_own env kids w
  rw [own_ready env w u hold] at hrest herr
  have hd := (askModules_dev env (requestOf false (env.clock w.net.ticks) w.dev) (ready env w)).1
  rw [hr] at hd
  simp only at hd
  have hm := modularUpdate_ok env false (env.clock w.net.ticks) (ready env w) l1 resp (by rw [marked_ready, request_ready]; exact hr)
  have htg : ∀ v, Dict.get? resp "get_device_info" = some (.value v) → v ≠ .null → tryGet resp "get_device_info" = .ok v := by
    intro v hv hn
    unfold tryGet
    rw [hv]
    simp only
    rw [if_neg hn]
  refine ⟨?_, ?_⟩
  · intro hno
    have ht : tryGet resp "get_device_info" = .error .kasa := by
      unfold tryGet
      cases hg : Dict.get? resp "get_device_info" with
      | none => rfl
      | some x =>
        cases x with
        | error c => rfl
        | value v => simp only; rw [if_pos (hno v hg)]
    have hti : takeInfo false resp (stored l1 resp) = (.error .kasa, stored l1 resp) := by
      unfold takeInfo
      simp only [Bool.false_eq_true, if_false, ht]
    rw [bind_error hti] at hm
    have := herr .kasa (by rw [hm])
    rw [this, hm]
    refine ⟨rfl, ?_, ?_⟩
    · change l1.dev.mods = _
      rw [hd]
      rfl
    · change l1.dev.info = _
      rw [hd]
      rfl
  · intro v hv hn
    have hti : takeInfo false resp (stored l1 resp) = (.ok (), { stored l1 resp with dev := { (stored l1 resp).dev with info := v } }) := by
      unfold takeInfo
      simp only [Bool.false_eq_true, if_false, htg v hv hn]
    rw [bind_ok hti] at hm
    rw [hrest.info, hm]
    cases hp : postAll (env.clock w.net.ticks) (fun n => (dueNames false (env.clock w.net.ticks) (ready env w).dev).contains n)
        { stored l1 resp with dev := { (stored l1 resp).dev with info := v } } with
    | mk r l4 =>
      obtain ⟨hs, _, _⟩ := postAll_spec _ _ _ (by change Dict.WF l1.dev.mods; rw [hd]; exact hwf) _ _ hp
      exact hs.info

/-! ## C31 for whole devices -/

/-- Whether a module with a query is queried is decided by its bookkeeping alone. -/
theorem due_queried (t : Rat) (d : Dev) (m : Mod) (hq : m.query ≠ []) :
    due false t d m = queried ⟨m.cls.interval, d.hubChild⟩ m.sched t := by
  unfold due wanted queried Mod.kind
  have : m.query.isEmpty = false := by
    cases h : m.query with
    | nil => exact absurd h hq
    | cons a b => rfl
  simp [this]

/-- C31: an update of a device after its first acts on each module that has a query as the update event of C31 does, and the update
did reach the modules' hooks if it ended normally. -/
theorem C31_device (env : Env) (w : World) (kids : Bool) (u : Rat) (hold : w.dev.time = some u) (hwf : Dict.WF w.dev.mods)
    (hh : ∀ n m, (n, m) ∈ w.dev.mods → ∀ v e, m.cls.hook v = .error e → e.isException = true)
    (n : String) (m : Mod) (hg : Dict.get? w.dev.mods n = some m) (hq : m.query ≠ []) :
    ∃ done ok, Dict.get? (update env true kids w).2.dev.mods n =
        some { m with sched := step ⟨m.cls.interval, w.dev.hubChild⟩ m.sched (.update (env.clock w.net.ticks) done ok) } ∧
      ((update env true kids w).1 = .ok () → done = true) := by
  obtain ⟨hrest, herr⟩ := update_own env kids w
  rw [own_ready env w u hold] at hrest herr
  rw [hrest.mods]
  have hsame : ∀ e, (modularUpdate env false (env.clock w.net.ticks) (ready env w)).1 = .error e →
      (modularUpdate env false (env.clock w.net.ticks) (ready env w)).2.dev.mods = w.dev.mods →
      ∃ done ok, Dict.get? (modularUpdate env false (env.clock w.net.ticks) (ready env w)).2.dev.mods n =
        some { m with sched := step ⟨m.cls.interval, w.dev.hubChild⟩ m.sched (.update (env.clock w.net.ticks) done ok) } ∧
      ((update env true kids w).1 = .ok () → done = true) := by
    intro e he hmods
    refine ⟨false, true, ?_, ?_⟩
    · rw [hmods]
      exact hg
    · intro hok
      rw [herr e he] at hok
      cases hok
  have hd := (askModules_dev env (requestOf false (env.clock w.net.ticks) w.dev) (ready env w)).1
  cases hr : askModules env (requestOf false (env.clock w.net.ticks) w.dev) (ready env w) with
  | mk r l1 =>
    rw [hr] at hd
    simp only at hd
    cases r with
    | error e =>
      have hm := modularUpdate_error env false (env.clock w.net.ticks) (ready env w) l1 e (by rw [marked_ready, request_ready]; exact hr)
      exact hsame e (by rw [hm]) (by rw [hm]; simp only; rw [hd]; rfl)
    | ok resp =>
      have hm := modularUpdate_ok env false (env.clock w.net.ticks) (ready env w) l1 resp (by rw [marked_ready, request_ready]; exact hr)
      have ht := takeInfo_last false resp (stored l1 resp)
      cases htk : takeInfo false resp (stored l1 resp) with
      | mk r3 l3 =>
        rw [htk] at ht
        have hl3 : l3.dev.mods = w.dev.mods := by
          rw [ht.2.2]
          change l1.dev.mods = _
          rw [hd]
          rfl
        cases r3 with
        | error e =>
          rw [bind_error htk] at hm
          exact hsame e (by rw [hm]) (by rw [hm]; exact hl3)
        | ok x =>
          rw [bind_ok htk] at hm
          cases hp : postAll (env.clock w.net.ticks) (fun n => (dueNames false (env.clock w.net.ticks) (ready env w).dev).contains n) l3 with
          | mk r4 l4 =>
            obtain ⟨_, hpost, hbad⟩ := postAll_spec _ _ _ (hl3 ▸ hwf) _ _ hp
            cases r4 with
            | error e =>
              exfalso
              obtain ⟨h1, n', m', v, h2, h3⟩ := hbad e rfl
              rw [hl3] at h2
              have := hh n' m' (Dict.mem_of_get? h2) v e h3
              rw [h1] at this
              cases this
            | ok y =>
              have := hpost rfl n m (by rw [hl3]; exact hg)
              refine ⟨true, hookOk m (viewOf l3), ?_, fun _ => rfl⟩
              rw [hm, hp]
              simp only
              rw [this]
              have hdue : (dueNames false (env.clock w.net.ticks) (ready env w).dev).contains n =
                  queried ⟨m.cls.interval, w.dev.hubChild⟩ m.sched (env.clock w.net.ticks) := by
                rw [dueNames_iff false _ (ready env w).dev hwf n m hg, due_queried _ _ _ hq]
                rfl
              unfold after step
              simp only [if_true]
              rw [hdue]

/-- C31 for the children of a device: the same holds for their updates. -/
theorem C31_child (env : Env) (l : Local) (hwf : Dict.WF l.dev.mods)
    (hh : ∀ n m, (n, m) ∈ l.dev.mods → ∀ v e, m.cls.hook v = .error e → e.isException = true)
    (n : String) (m : Mod) (hg : Dict.get? l.dev.mods n = some m) (hq : m.query ≠ []) :
    ∃ done ok, Dict.get? (childUpdate env l).2.dev.mods n =
        some { m with sched := step ⟨m.cls.interval, l.dev.hubChild⟩ m.sched (.update (env.clock l.net.ticks) done ok) } ∧
      ((childUpdate env l).1 = .ok () → done = true) := by
  have h0 : childUpdate env l = (childQueryModules env (requestOf false (env.clock l.net.ticks) l.dev) >>= fun _ =>
      postAll (env.clock l.net.ticks) (fun n => (dueNames false (env.clock l.net.ticks) l.dev).contains n) >>= fun _ =>
      modifyDev (fun d => { d with time := some (env.clock l.net.ticks) }) >>= fun _ => initFeatures)
        { l with net := { l.net with ticks := l.net.ticks + 1 } } := rfl
  have hmods : (childQueryModules env (requestOf false (env.clock l.net.ticks) l.dev)
      { l with net := { l.net with ticks := l.net.ticks + 1 } }).2.dev.mods = l.dev.mods := by
    unfold childQueryModules
    split
    · rfl
    · rw [bind_apply]
      have hd := (askModules_dev env (requestOf false (env.clock l.net.ticks) l.dev) { l with net := { l.net with ticks := l.net.ticks + 1 } }).1
      revert hd
      cases askModules env (requestOf false (env.clock l.net.ticks) l.dev) { l with net := { l.net with ticks := l.net.ticks + 1 } } with
      | mk r l1 =>
        intro hd
        simp only at hd
        cases r with
        | error e => simp only; rw [hd]
        | ok resp => change l1.dev.mods = _; rw [hd]
  rw [h0, bind_apply]
  revert hmods
  cases childQueryModules env (requestOf false (env.clock l.net.ticks) l.dev) { l with net := { l.net with ticks := l.net.ticks + 1 } } with
  | mk r l1 =>
    intro hmods
    simp only at hmods
    cases r with
    | error e =>
      refine ⟨false, true, ?_, fun h => by cases h⟩
      simp only
      rw [hmods]
      exact hg
    | ok x =>
      simp only
      rw [bind_apply]
      cases hp : postAll (env.clock l.net.ticks) (fun n => (dueNames false (env.clock l.net.ticks) l.dev).contains n) l1 with
      | mk r2 l2 =>
        obtain ⟨_, hpost, hbad⟩ := postAll_spec _ _ _ (hmods ▸ hwf) _ _ hp
        cases r2 with
        | error e =>
          exfalso
          obtain ⟨h1, n', m', v, h2, h3⟩ := hbad e rfl
          rw [hmods] at h2
          have := hh n' m' (Dict.mem_of_get? h2) v e h3
          rw [h1] at this
          cases this
        | ok y =>
          have hpm := hpost rfl n m (by rw [hmods]; exact hg)
          refine ⟨true, hookOk m (viewOf l1), ?_, fun _ => rfl⟩
          have hf := feats_init { l2 with dev := { l2.dev with time := some (env.clock l.net.ticks) } }
          unfold SameButFeats at hf
          change Dict.get? (initFeatures { l2 with dev := { l2.dev with time := some (env.clock l.net.ticks) } }).2.dev.mods n = _
          rw [hf]
          change Dict.get? l2.dev.mods n = _
          rw [hpm]
          have hdue : (dueNames false (env.clock l.net.ticks) l.dev).contains n =
              queried ⟨m.cls.interval, l.dev.hubChild⟩ m.sched (env.clock l.net.ticks) := by
            rw [dueNames_iff false _ l.dev hwf n m hg, due_queried _ _ _ hq]
          unfold after step
          simp only [if_true]
          rw [hdue]

/-! ## C34: a failed first update can be repeated -/

/-- A device that had an update and has no modules. -/
def Stuck (w : World) : Prop := w.dev.time ≠ none ∧ w.dev.mods = [] ∧ w.dev.id = none

theorem stuck_stays (env : Env) (hempty : ∀ n, env.answer n none [] = .ok []) (kids : Bool) (w : World) (h : Stuck w) :
    (update env true kids w).1 = .error .kasa ∧ Stuck (update env true kids w).2 := by
  obtain ⟨ht, hm, hid⟩ := h
  cases hu : w.dev.time with
  | none => exact absurd hu ht
  | some u =>
    have hreq : requestOf false (env.clock w.net.ticks) w.dev = [] := by
      unfold requestOf
      rw [hm]
      rfl
    have hr : askModules env (requestOf false (env.clock w.net.ticks) w.dev) (ready env w) = (.ok [], asked (ready env w) [[]]) := by
      rw [hreq]
      refine askModules_ok env _ _ _ ?_
      change env.answer _ w.dev.id [] = _
      rw [hid]
      exact hempty _
    have hwf : Dict.WF w.dev.mods := by
      rw [hm]
      exact List.nodup_nil
    have h := (C33_info env w kids u hu hwf [] _ hr).1 (fun v hv => by cases hv)
    have hti : takeInfo false [] (stored (asked (ready env w) [[]]) []) = (.error .kasa, stored (asked (ready env w) [[]]) []) := rfl
    have hmu := modularUpdate_ok env false (env.clock w.net.ticks) (ready env w) _ [] (by rw [marked_ready, request_ready]; exact hr)
    rw [bind_error hti] at hmu
    obtain ⟨hrest, _⟩ := update_own env kids w
    rw [own_ready env w u hu, hmu] at hrest
    refine ⟨h.1, ?_, h.2.1.trans hm, hrest.id.trans hid⟩
    rw [hrest.time]
    exact fun h => by cases h

/-- A query without methods reaches no device and has no answers: the protocol of SMART devices gives an empty dict. -/
theorem C34_empty_request {σ : Type} (t : Smart.Transport σ) (s : Smart.St σ) : Smart.executeQuery t (.dict []) s = (.ok [], s) := by
  have hb : ∀ step, Smart.batchStarts 0 step = [] := by
    intro step
    unfold Smart.batchStarts
    have : (0 + step - 1) / step = 0 := by
      cases step with
      | zero => rfl
      | succ n => exact Nat.div_eq_of_lt (by omega)
    rw [this]
    rfl
  change Smart.executeMultiple t _ [] s = _
  unfold Smart.executeMultiple
  rw [bind_ok (get_apply s)]
  by_cases h : s.batchSize = 1
  · rw [if_pos h]
    rfl
  · rw [if_neg h]
    change (foldM _ [] (Smart.batchStarts 0 s.batchSize) >>= _) s = _
    rw [hb]
    rfl

/-- C34 does not hold: if the very first query of a new device fails, for whatever reason, every later update raises too, although
the device answers everything from then on; the requests sent have no content. -/
theorem C34_stuck (env : Env) (e : Exc) (h0 : env.answer 0 none initialQuery = .error e) (hempty : ∀ n, env.answer n none [] = .ok [])
    (first : Bool) (later : List Bool) (last : Bool) :
    (update env true first newWorld).1 = .error e ∧
    (update env true last (later.foldl (fun w kids => (update env true kids w).2) (update env true first newWorld).2)).1 = .error .kasa := by
  have hown : ownUpdate env ⟨newDev, none, ⟨[], 0⟩⟩ =
      (.error e, ⟨{ newDev with time := some (env.clock 0) }, none, ⟨[(none, initialQuery)], 1⟩⟩) := by
    have hask : ask env initialQuery ⟨{ newDev with time := some (env.clock 0) }, none, ⟨[], 1⟩⟩ =
        (.error e, ⟨{ newDev with time := some (env.clock 0) }, none, ⟨[(none, initialQuery)], 1⟩⟩) := by
      rw [ask_eq]
      change (env.answer 0 none initialQuery, _) = _
      rw [h0]
      rfl
    have hneg : negotiate env ⟨{ newDev with time := some (env.clock 0) }, none, ⟨[], 1⟩⟩ =
        (.error e, ⟨{ newDev with time := some (env.clock 0) }, none, ⟨[(none, initialQuery)], 1⟩⟩) := by
      unfold negotiate
      exact bind_error hask
    have hfirst : firstPart env (env.clock 0) ⟨{ newDev with time := some (env.clock 0) }, none, ⟨[], 1⟩⟩ =
        (.error e, ⟨{ newDev with time := some (env.clock 0) }, none, ⟨[(none, initialQuery)], 1⟩⟩) := by
      unfold firstPart
      exact bind_error hneg
    change (firstPart env (env.clock 0) >>= fun _ => modularUpdate env true (env.clock 0)) ⟨{ newDev with time := some (env.clock 0) }, none, ⟨[], 1⟩⟩ = _
    exact bind_error hfirst
  have hup := (update_own env first newWorld).2 e (by change (ownUpdate env ⟨newDev, none, ⟨[], 0⟩⟩).1 = _; rw [hown])
  rw [hup]
  refine ⟨rfl, ?_⟩
  have hst : Stuck { newWorld with dev := (ownUpdate env ⟨newWorld.dev, none, newWorld.net⟩).2.dev, net := (ownUpdate env ⟨newWorld.dev, none, newWorld.net⟩).2.net } := by
    change Stuck { newWorld with dev := (ownUpdate env ⟨newDev, none, ⟨[], 0⟩⟩).2.dev, net := (ownUpdate env ⟨newDev, none, ⟨[], 0⟩⟩).2.net }
    rw [hown]
    exact ⟨fun h => (by cases h), rfl, rfl⟩
  generalize ({ newWorld with dev := (ownUpdate env ⟨newWorld.dev, none, newWorld.net⟩).2.dev, net := (ownUpdate env ⟨newWorld.dev, none, newWorld.net⟩).2.net } : World) = w at hst
  suffices h : Stuck (later.foldl (fun w kids => (update env true kids w).2) w) from (stuck_stays env hempty last _ h).1
  induction later generalizing w with
  | nil => exact hst
  | cons k ks ih => exact ih _ (stuck_stays env hempty k w hst).2

/-- The environment in which the n-th query is interrupted by `e`. -/
def interruptedAt (env : Env) (n : Nat) (e : Exc) : Env :=
  { env with answer := fun i id req => if i = n then .error e else env.answer i id req }

/-- What the negotiation and the creation of modules leave behind. -/
theorem firstPart_facts (env : Env) (f : String → Entry) (hans : ∀ n id req, env.answer n id req = .ok (answers f req))
    (hcloud : ∀ c ∈ env.reg.classes, c.name = "Cloud" → c.firstUpdate = true) (t : Rat) (l l2 : Local) (hl : l.dev.last = []) (hmods : l.dev.mods = [])
    (h : firstPart env t l = (.ok (), l2)) :
    Dict.WF l2.dev.last ∧ (∀ k v, Dict.get? l2.dev.last k = some v → v = f k) ∧ f "get_device_info" = .value l2.dev.info ∧ l2.dev.info ≠ .null ∧
    Dict.WF l2.dev.mods ∧ (∀ n m, Dict.get? l2.dev.mods n = some m → (m.sched = fresh ∨ m.cls.firstUpdate = true) ∧ (n ≠ "Cloud" → m.sched = fresh)) ∧
    l2.dev.id = l.dev.id ∧ l2.dev.time = l.dev.time ∧ l2.dev.parent = l.dev.parent ∧ l2.up = l.up ∧ l2.net.ticks = l.net.ticks ∧
    l2.net.asked.length = l.net.asked.length + (if Dict.has l2.dev.comps "child_device" then 2 else 1) ∧
    (∀ e, firstPart (interruptedAt env l2.net.asked.length e) t l = (.ok (), l2)) := by
  unfold firstPart at h
  obtain ⟨_, l0, h0, h⟩ := bind_eq_ok h
  obtain ⟨_, l1, h1, h⟩ := bind_eq_ok h
  obtain ⟨a1, a2, a3, a4, a5, a6, a7, a8, a9, a10, _, a12, a13⟩ := negotiate_facts env f hans l l0 hl h0
  have honly : l1 = { l0 with dev := { l0.dev with mods := l1.dev.mods } } := by
    have := only_initModules env l0
    rw [h1] at this
    exact this
  have hnew : New env.reg l1.dev.mods := by
    have := new_initModules env l0 (by rw [a5, hmods]; exact ⟨Dict.WF_nil, fun n m h => by cases h⟩)
    rw [h1] at this
    exact this
  obtain ⟨hs, hother, hself, _⟩ := handlePost_spec t (fun _ => true) "Cloud" l1 _ l2 h
  have b1 : l1.dev.last = l0.dev.last := by rw [honly]
  have b2 : l1.dev.info = l0.dev.info := by rw [honly]
  have b3 : l1.net = l0.net := by rw [honly]
  have b4 : l1.dev.comps = l0.dev.comps := by rw [honly]
  have b5 : l1.dev.id = l0.dev.id := by rw [honly]
  have b6 : l1.dev.time = l0.dev.time := by rw [honly]
  have b7 : l1.dev.parent = l0.dev.parent := by rw [honly]
  have b8 : l1.up = l0.up := by rw [honly]
  have hlen : l2.net.asked.length = l0.net.asked.length := by rw [hs.net, b3]
  refine ⟨?_, ?_, ?_, ?_, ?_, ?_, ?_, ?_, ?_, ?_, ?_, ?_, ?_⟩
  · rw [hs.last, b1]; exact a1
  · rw [hs.last, b1]; exact a2
  · rw [hs.info, b2]; exact a3
  · rw [hs.info, b2]; exact a4
  · unfold Dict.WF
    rw [hs.keys]
    exact hnew.1
  · intro n m hg
    by_cases hn : n = "Cloud"
    · subst hn
      cases hg1 : Dict.get? l1.dev.mods "Cloud" with
      | none =>
        exfalso
        have hk := Dict.get?_eq_none_iff.mp hg1
        rw [← hs.keys] at hk
        rw [Dict.get?_eq_none_iff.mpr hk] at hg
        cases hg
      | some m1 =>
        rw [hself rfl m1 hg1] at hg
        cases hg
        obtain ⟨hf, hc⟩ := hnew.2 _ _ hg1
        refine ⟨Or.inr ?_, ?_⟩
        · rcases hc with hc | hc | ⟨hc, hc'⟩
          · exact absurd hc (by decide)
          · exact absurd hc (by decide)
          · exact hcloud _ hc hc'.symm
        · exact fun h => absurd rfl h
    · rw [hother n hn] at hg
      have := (hnew.2 n m hg).1
      exact ⟨Or.inl this, fun _ => this⟩
  · rw [hs.id, b5, a6]
  · rw [hs.time, b6, a7]
  · rw [hs.parent, b7, a8]
  · rw [hs.up, b8, a9]
  · rw [hs.net, b3, a10]
  · rw [hlen, hs.comps, b4, a12]
  · intro e
    have hn : negotiate (interruptedAt env l2.net.asked.length e) l = (.ok (), l0) := by
      apply a13
      intro n hn
      funext id req
      unfold interruptedAt
      simp only
      rw [if_neg (by omega)]
    unfold firstPart
    rw [bind_ok hn]
    have hi : initModules (interruptedAt env l2.net.asked.length e) l0 = (.ok (), l1) := h1
    rw [bind_ok hi]
    exact h

theorem get?_mark (first : Bool) (t : Rat) (d : Dev) (n : String) (m : Mod) (h : Dict.get? d.mods n = some m) :
    Dict.get? (markPreloaded first t d).mods n =
      some (if wanted first m && (first && m.cls.firstUpdate) then { m with sched := { m.sched with last := some t } } else m) := by
  unfold markPreloaded
  simp only
  generalize d.mods = ms at h
  induction ms with
  | nil => cases h
  | cons p ms ih =>
    rw [List.map_cons, Dict.get?_cons]
    rw [Dict.get?_cons] at h
    simp only
    split
    · rename_i e
      rw [if_pos e] at h
      cases h
      rfl
    · rename_i e
      rw [if_neg e] at h
      exact ih h

/-- C34, for a first update that is interrupted (say cancelled) in the query of the modules: with a device that answers each method
always the same, updating again gives the device all that the uninterrupted first update would have given it: the same info,
components, kind and modules, and each answer it would hold.

Missing: errors that are raised before, see `C34_stuck`; the children; and that nothing more is held (methods of the modules whose
data was there already are asked for again). -/
theorem C34_interrupted_partial (env : Env) (f : String → Entry) (hans : ∀ n id req, env.answer n id req = .ok (answers f req))
    (hcloud : ∀ c ∈ env.reg.classes, c.name = "Cloud" → c.firstUpdate = true) (kids kids' kids'' : Bool) (wA : World)
    (hA : update env true kids newWorld = (.ok (), wA))
    (hdev : ∃ n m, n ≠ "Cloud" ∧ Dict.get? wA.dev.mods n = some m ∧ m.cls.interval = 0 ∧ "get_device_info" ∈ Dict.keys m.query)
    (N : Nat) (hN : N = if Dict.has wA.dev.comps "child_device" then 2 else 1) (e : Exc) (he : e.isException = false) :
    (update (interruptedAt env N e) true kids' newWorld).1 = .error e ∧
    let wB := (update (interruptedAt env N e) true kids'' (update (interruptedAt env N e) true kids' newWorld).2).2
    wB.dev.info = wA.dev.info ∧ wB.dev.comps = wA.dev.comps ∧ wB.dev.kind = wA.dev.kind ∧ Dict.keys wB.dev.mods = Dict.keys wA.dev.mods ∧
    (∀ k v, Dict.get? wA.dev.last k = some v → Dict.get? wB.dev.last k = some v) := by
  -- the uninterrupted update
  have hownA : ownUpdate env ⟨newWorld.dev, none, newWorld.net⟩ =
      (firstPart env (env.clock 0) >>= fun _ => modularUpdate env true (env.clock 0)) ⟨{ newDev with time := some (env.clock 0) }, none, ⟨[], 1⟩⟩ := rfl
  obtain ⟨hrestA, herrA⟩ := update_own env kids newWorld
  rw [hA] at hrestA herrA
  cases hoA : ownUpdate env ⟨newWorld.dev, none, newWorld.net⟩ with
  | mk rA lA =>
  rw [hoA] at hrestA herrA
  cases rA with
  | error e' => exact absurd (herrA e' rfl) (by simp)
  | ok x =>
  cases x
  rw [hownA] at hoA
  obtain ⟨_, l2, h2, hmA⟩ := bind_eq_ok hoA
  obtain ⟨c1, c2, c3, c4, c5, c6, c7, c8, c9, c10, c11, c12, c13⟩ := firstPart_facts env f hans hcloud (env.clock 0) _ l2 rfl rfl h2
  obtain ⟨k1, k2, k3, k4, k5, k6, k7⟩ := modularUpdate_keeps env true (env.clock 0) l2 c5
  rw [hmA] at k1 k2 k3 k4 k5 k6 k7
  obtain ⟨respA, l1A, haA, hlastA, hinfoA, hmodsA⟩ := modularUpdate_done env true (env.clock 0) l2 lA c5 hmA
  have hrespA : respA = answers f (requestOf true (env.clock 0) l2.dev) := by
    rw [askModules_ok env _ _ _ (hans _ _ _)] at haA
    cases haA
    rfl
  have hcomps : wA.dev.comps = l2.dev.comps := hrestA.comps.trans k1
  have hlen : l2.net.asked.length = N := by
    rw [c12, hN, hcomps]
    simp
  -- the interrupted one
  have hfB := c13 e
  rw [hlen] at hfB
  have hownB : ownUpdate (interruptedAt env N e) ⟨newWorld.dev, none, newWorld.net⟩ =
      (firstPart (interruptedAt env N e) (env.clock 0) >>= fun _ => modularUpdate (interruptedAt env N e) true (env.clock 0))
        ⟨{ newDev with time := some (env.clock 0) }, none, ⟨[], 1⟩⟩ := rfl
  have hmB := modularUpdate_error (interruptedAt env N e) true (env.clock 0) l2 _ e
    (askModules_base (interruptedAt env N e) (requestOf true (env.clock 0) l2.dev) (marked true (env.clock 0) l2) e (by
      change (if l2.net.asked.length = N then _ else _) = _
      rw [if_pos hlen]) he)
  rw [bind_ok hfB, hmB] at hownB
  have hB0 := (update_own (interruptedAt env N e) kids' newWorld).2 e (by rw [hownB])
  rw [hownB] at hB0
  simp only at hB0
  rw [hB0]
  refine ⟨rfl, ?_⟩
  -- the repetition
  generalize hw0 : ({ newWorld with dev := (asked (marked true (env.clock 0) l2) [requestOf true (env.clock 0) l2.dev]).dev, net := (asked (marked true (env.clock 0) l2) [requestOf true (env.clock 0) l2.dev]).net } : World) = w0
  have d1 : w0.dev = markPreloaded true (env.clock 0) l2.dev := by rw [← hw0]; rfl
  have d2 : w0.net.asked.length = N + 1 := by
    rw [← hw0]
    simp [asked, marked, hlen]
  have d3 : w0.dev.time = some (env.clock 0) := by rw [d1]; exact c8
  have d4 : Dict.WF w0.dev.mods := by
    rw [d1]
    exact marked_wf true (env.clock 0) l2 c5
  have d5 : ∀ n m, Dict.get? l2.dev.mods n = some m →
      Dict.get? w0.dev.mods n = some (if wanted true m && (true && m.cls.firstUpdate) then { m with sched := { m.sched with last := some (env.clock 0) } } else m) := by
    intro n m hg
    rw [d1]
    exact get?_mark true (env.clock 0) l2.dev n m hg
  have hansB : (interruptedAt env N e).answer w0.net.asked.length w0.dev.id (requestOf false ((interruptedAt env N e).clock w0.net.ticks) w0.dev) =
      .ok (answers f (requestOf false ((interruptedAt env N e).clock w0.net.ticks) w0.dev)) := by
    change (if w0.net.asked.length = N then _ else _) = _
    rw [if_neg (by omega)]
    exact hans _ _ _
  have hcomb := C33_combined (interruptedAt env N e) w0 kids'' (env.clock 0) d3 d4 _ (answers_wf f _ (request_wf _ _ _)) hansB
  have hinfoB := (C33_info (interruptedAt env N e) w0 kids'' (env.clock 0) d3 d4 _ _ (askModules_ok (interruptedAt env N e) _ (ready (interruptedAt env N e) w0) _ hansB)).2
  -- a module that is queried first is queried again, unless its data was there
  have hsub : ∀ k, k ∈ Dict.keys (requestOf true (env.clock 0) l2.dev) →
      k ∈ Dict.keys (requestOf false ((interruptedAt env N e).clock w0.net.ticks) w0.dev) := by
    intro k hk
    obtain ⟨n, m, hm, hdue, hkm⟩ := (request_keys _ _ _ _).mp hk
    have hg := Dict.get?_of_mem c5 hm
    have hg' := d5 n m hg
    unfold due at hdue
    simp only [Bool.true_and, Bool.and_eq_true, Bool.not_eq_true'] at hdue
    rw [hdue.1.2] at hg'
    simp only [Bool.and_false, Bool.false_eq_true, if_false] at hg'
    have hc := c6 n m hg
    rw [hdue.1.2] at hc
    have hfr : m.sched = fresh := by
      rcases hc.1 with h | h
      · exact h
      · cases h
    refine (C33_request _ _ _).mpr ⟨n, m, Dict.mem_of_get? hg', ?_, hkm⟩
    rw [hfr]
    unfold queried shouldUpdate
    simp [fresh, disabled]
  obtain ⟨nD, mD, hnD, hgD, hiD, hkD⟩ := hdev
  have hkeysD : "get_device_info" ∈ Dict.keys (requestOf false ((interruptedAt env N e).clock w0.net.ticks) w0.dev) := by
    rw [hrestA.mods] at hgD
    have hin : nD ∈ Dict.keys l2.dev.mods := by
      rw [← k3]
      exact List.mem_map_of_mem (f := Prod.fst) (Dict.mem_of_get? hgD)
    cases hg2 : Dict.get? l2.dev.mods nD with
    | none => exact absurd hin (Dict.get?_eq_none_iff.mp hg2)
    | some m2 =>
      obtain ⟨v, hv⟩ := hmodsA nD _ (get?_mark true (env.clock 0) l2.dev nD m2 hg2)
      rw [hv] at hgD
      have hg0 := d5 nD m2 hg2
      have hq2 : mD.query = m2.query ∧ mD.cls = m2.cls := by
        cases hgD
        unfold after
        split <;> exact ⟨rfl, rfl⟩
      rw [hq2.1] at hkD
      rw [hq2.2] at hiD
      have hfr := (c6 nD m2 hg2).2 hnD
      have hhub : w0.dev.hubChild = false := by
        unfold Dev.hubChild
        rw [d1]
        change decide (l2.dev.parent = some true) = false
        rw [c9]
        rfl
      refine (C33_request _ _ _).mpr ⟨nD, _, Dict.mem_of_get? hg0, ?_, ?_⟩
      · rw [hhub]
        unfold queried shouldUpdate SmartModule.updateInterval
        split <;> simp [hfr, fresh, disabled, hiD]
      · split <;> exact hkD
  have hgetD : Dict.get? (answers f (requestOf false ((interruptedAt env N e).clock w0.net.ticks) w0.dev)) "get_device_info" = some (.value l2.dev.info) := by
    rw [answers_get, if_pos hkeysD, c3]
  obtain ⟨hrestB, _⟩ := update_own (interruptedAt env N e) kids'' w0
  rw [own_ready (interruptedAt env N e) w0 (env.clock 0) d3] at hrestB
  obtain ⟨m1, m2, m3, _⟩ := modularUpdate_keeps (interruptedAt env N e) false ((interruptedAt env N e).clock w0.net.ticks) (ready (interruptedAt env N e) w0) d4
  refine ⟨?_, ?_, ?_, ?_, ?_⟩
  · rw [hinfoB _ hgetD c4, hrestA.info]
    simp only [if_true] at hinfoA
    change _ = lA.dev.info
    unfold tryGet at hinfoA
    cases hgA : Dict.get? lA.dev.last "get_device_info" with
    | none => rw [hgA] at hinfoA; cases hinfoA
    | some x =>
      cases x with
      | error c => rw [hgA] at hinfoA; cases hinfoA
      | value v =>
        rw [hgA] at hinfoA
        simp only at hinfoA
        split at hinfoA
        · cases hinfoA
        · cases hinfoA
          rw [hlastA, hrespA, Dict.get?_update (answers_wf f _ (request_wf _ _ _)), answers_get] at hgA
          split at hgA
          · rw [c3] at hgA
            exact Entry.value.inj (Option.some.inj hgA)
          · have := c2 _ _ hgA
            rw [c3] at this
            exact (Entry.value.inj this).symm
  · rw [hrestB.comps, hcomps]
    refine m1.trans ?_
    change w0.dev.comps = _
    rw [d1]
    rfl
  · rw [hrestB.kind, hrestA.kind]
    refine m2.trans ?_
    change w0.dev.kind = lA.dev.kind
    rw [d1, k2]
    rfl
  · rw [hrestB.mods, hrestA.mods]
    refine m3.trans ?_
    change Dict.keys w0.dev.mods = Dict.keys lA.dev.mods
    rw [d1, k3, mark_keys]
  · intro k v hk
    rw [hrestA.last] at hk
    change Dict.get? lA.dev.last k = some v at hk
    rw [hlastA, hrespA, Dict.get?_update (answers_wf f _ (request_wf _ _ _)), answers_get] at hk
    rw [hcomb k, answers_get]
    have hl0 : w0.dev.last = l2.dev.last := by rw [d1]; rfl
    rw [hl0]
    split at hk
    · rename_i hin
      rw [if_pos (hsub k hin)]
      exact hk
    · have hv : v = f k := c2 k v hk
      split
      · rw [hv]; rfl
      · exact hk

/-! ## C35: children follow the device's list -/

/-- What is said of the children after an update, given what they were and what the device reported. -/
structure Follows (env : Env) (comps : List (String × Json)) (rs : List (Option String × Json)) (w w' : World) : Prop where
  /-- They are exactly the children that are reported and have components, and were known or can be created. -/
  exact : ∀ id, id ∈ Dict.keys w'.kids ↔
    Listed comps rs id ∧ (id ∈ Dict.keys w.kids ∨ ∃ info, (some id, info) ∈ rs ∧ env.creatable info = true)
  /-- Those that were known are the same objects. -/
  kept : ∀ id d, Dict.get? w.kids id = some d → Listed comps rs id → ∃ d', Dict.get? w'.kids id = some d' ∧ d'.uid = d.uid
  /-- The others are objects that did not exist before. -/
  created : ∀ id d', Dict.get? w'.kids id = some d' → id ∉ Dict.keys w.kids → w.born ≤ d'.uid ∧ d'.uid < w'.born ∧ d'.id = some id
  /-- Each has the info last reported for it. -/
  info : ∀ id d', Dict.get? w'.kids id = some d' → lastReported rs id = some d'.info
  wf : Dict.WF w'.kids

theorem lastReported_some (rs : List (Option String × Json)) (id : String) (h : ∃ info, (some id, info) ∈ rs) : ∃ i, lastReported rs id = some i := by
  obtain ⟨info, hm⟩ := h
  have : (some id, info) ∈ rs.filter (fun r => r.1 = some id) := List.mem_filter.mpr ⟨hm, by simp⟩
  unfold lastReported
  cases hg : (rs.filter (fun r => r.1 = some id)).getLast? with
  | none =>
    rw [List.getLast?_eq_none_iff] at hg
    rw [hg] at this
    cases this
  | some x => exact ⟨x.2, rfl⟩

/-- C35 for the step that compares the lists: it also tells whether the set of children changed, and leaves them alone if the device
reported no list. -/
theorem C35_lists (env : Env) (w w' : World) (changed : Bool) (hwf : Dict.WF w.kids) (h : updateChildrenInfo env w = (.ok changed, w')) :
    (childList w.dev.last = none → w' = w ∧ changed = false) ∧
    (∀ v comps rs, childList w.dev.last = some v → componentsById (Dict.get? w.dev.last "get_child_device_component_list") = .ok comps →
      reports v = .ok rs → Follows env comps rs w w' ∧ (changed = true ↔ ∃ id, ¬ (id ∈ Dict.keys w'.kids ↔ id ∈ Dict.keys w.kids))) := by
  unfold updateChildrenInfo at h
  refine ⟨?_, ?_⟩
  · intro hl
    rw [hl] at h
    cases h
    exact ⟨rfl, rfl⟩
  · intro v comps rs hl hc hr
    rw [hl] at h
    simp only at h
    rw [hc, hr, bind_ok (lift_ok_apply comps w), bind_ok (lift_ok_apply rs w)] at h
    obtain ⟨ch, w2, h2, h⟩ := bind_eq_ok h
    cases h
    unfold createDelete at h2
    obtain ⟨ch1, w1, h1, h2⟩ := bind_eq_ok h2
    obtain ⟨i1, i2, i3, i4, i5, i6⟩ := considerAll env _ comps rs _ _ _ _ h1
    cases h2
    have hw1 := i1 hwf
    obtain ⟨e1, e2⟩ := eraseAll_get ((Dict.keys w.kids).filter (fun id => !(presentIds comps rs).contains id)) w1.kids hw1
    have hrem : ∀ id, id ∈ (Dict.keys w.kids).filter (fun id => !(presentIds comps rs).contains id) ↔ id ∈ Dict.keys w.kids ∧ ¬ Listed comps rs id := by
      intro id
      rw [List.mem_filter, ← mem_present]
      simp
    have hp := pushAll_rest rs { w1 with kids := ((Dict.keys w.kids).filter (fun id => !(presentIds comps rs).contains id)).foldl (fun k id => Dict.erase k id) w1.kids }
    have hget := fun id => pushAll_get rs { w1 with kids := ((Dict.keys w.kids).filter (fun id => !(presentIds comps rs).contains id)).foldl (fun k id => Dict.erase k id) w1.kids } id
    have hwf' := pushAll_wf rs { w1 with kids := ((Dict.keys w.kids).filter (fun id => !(presentIds comps rs).contains id)).foldl (fun k id => Dict.erase k id) w1.kids } e1
    simp only at hp hget hwf'
    simp only
    generalize hwp : rs.foldl pushInfo { w1 with kids := ((Dict.keys w.kids).filter (fun id => !(presentIds comps rs).contains id)).foldl (fun k id => Dict.erase k id) w1.kids } = w' at hp hget hwf'
    have hmem : ∀ {d : List (String × Dev)} {id : String}, id ∈ Dict.keys d ↔ ∃ x, Dict.get? d id = some x := by
      intro d id
      rw [← Dict.has_iff]
      unfold Dict.has
      exact Option.isSome_iff_exists
    have hkeys : ∀ id, id ∈ Dict.keys w'.kids ↔ id ∈ Dict.keys w1.kids ∧ ¬ (id ∈ Dict.keys w.kids ∧ ¬ Listed comps rs id) := by
      intro id
      rw [hmem, hget id, e2 id]
      split
      · rename_i hc
        rw [hrem id] at hc
        constructor
        · rintro ⟨x, hx⟩
          cases hx
        · rintro ⟨_, hx⟩
          exact absurd hc hx
      · rename_i hc
        rw [hrem id] at hc
        constructor
        · rintro ⟨x, hx⟩
          cases hg : Dict.get? w1.kids id with
          | none => rw [hg] at hx; cases hx
          | some y => exact ⟨hmem.mpr ⟨y, hg⟩, hc⟩
        · rintro ⟨hx, _⟩
          obtain ⟨y, hy⟩ := hmem.mp hx
          exact ⟨_, by rw [hy]; rfl⟩
    have hexact : ∀ id, id ∈ Dict.keys w'.kids ↔
        Listed comps rs id ∧ (id ∈ Dict.keys w.kids ∨ ∃ info, (some id, info) ∈ rs ∧ env.creatable info = true) := by
      intro id
      rw [hkeys id]
      by_cases hin : id ∈ Dict.keys w.kids
      · have : id ∈ Dict.keys w1.kids := by
          rw [hmem, i3 id hin]
          exact hmem.mp hin
        constructor
        · rintro ⟨_, hnot⟩
          exact ⟨Classical.byContradiction fun hl => hnot ⟨hin, hl⟩, Or.inl hin⟩
        · rintro ⟨hl, _⟩
          exact ⟨this, fun h => h.2 hl⟩
      · rw [i4 id hin]
        constructor
        · rintro ⟨hx | ⟨hk, info, hm, hcr⟩, _⟩
          · exact absurd hx hin
          · exact ⟨⟨hk, info, hm⟩, Or.inr ⟨info, hm, hcr⟩⟩
        · rintro ⟨⟨hk, _⟩, hx | ⟨info, hm, hcr⟩⟩
          · exact absurd hx hin
          · exact ⟨Or.inr ⟨hk, info, hm, hcr⟩, fun h => hin h.1⟩
    have hinv : ∀ id d', Dict.get? w'.kids id = some d' → ∃ d, Dict.get? w1.kids id = some d ∧ d' = withInfo rs id d := by
      intro id d' hg
      rw [hget id, e2 id] at hg
      split at hg
      · cases hg
      · cases hg1 : Dict.get? w1.kids id with
        | none => rw [hg1] at hg; cases hg
        | some d =>
          rw [hg1] at hg
          cases hg
          exact ⟨d, rfl, rfl⟩
    have hwith : ∀ id d, (withInfo rs id d).uid = d.uid ∧ (withInfo rs id d).id = d.id := by
      intro id d
      unfold withInfo
      split <;> exact ⟨rfl, rfl⟩
    refine ⟨⟨hexact, ?_, ?_, ?_, hwf'⟩, ?_⟩
    · intro id d hg hl
      have hin := hmem.mpr ⟨d, hg⟩
      refine ⟨withInfo rs id d, ?_, (hwith id d).1⟩
      rw [hget id, e2 id, if_neg (by rw [hrem]; exact fun h => h.2 hl), i3 id hin, hg]
      rfl
    · intro id d' hg hnew
      obtain ⟨d, hg1, rfl⟩ := hinv id d' hg
      rcases i5 id d hnew hg1 with hx | ⟨a, b, c⟩
      · exact absurd (hmem.mpr ⟨d, hx⟩) hnew
      · rw [(hwith id d).1, (hwith id d).2]
        exact ⟨a, by rw [hp.2.2]; exact b, c⟩
    · intro id d' hg
      have hl := ((hexact id).mp (hmem.mpr ⟨d', hg⟩)).1
      obtain ⟨i, hi⟩ := lastReported_some rs id hl.2
      obtain ⟨d, _, rfl⟩ := hinv id d' hg
      unfold withInfo
      rw [hi]
    · rw [Bool.or_eq_true, i6]
      constructor
      · rintro ((hx | ⟨id, info, hne, hk, hm, hcr⟩) | hx)
        · cases hx
        · refine ⟨id, fun hiff => hne (hiff.mp ?_)⟩
          exact (hexact id).mpr ⟨⟨hk, info, hm⟩, Or.inr ⟨info, hm, hcr⟩⟩
        · cases hf : (Dict.keys w.kids).filter (fun id => !(presentIds comps rs).contains id) with
          | nil => rw [hf] at hx; cases hx
          | cons id rest =>
            have := (hrem id).mp (by rw [hf]; exact List.mem_cons_self)
            refine ⟨id, fun hiff => this.2 ?_⟩
            exact ((hexact id).mp (hiff.mpr this.1)).1
      · rintro ⟨id, hne⟩
        by_cases hin : id ∈ Dict.keys w.kids
        · right
          have hnl : ¬ Listed comps rs id := fun hl => hne ⟨fun _ => hin, fun _ => (hexact id).mpr ⟨hl, Or.inl hin⟩⟩
          have := (hrem id).mpr ⟨hin, hnl⟩
          cases hf : (Dict.keys w.kids).filter (fun id => !(presentIds comps rs).contains id) with
          | nil => rw [hf] at this; cases this
          | cons a b => rfl
        · left
          right
          have : id ∈ Dict.keys w'.kids := Classical.byContradiction fun h => hne ⟨fun h' => absurd h' h, fun h' => absurd h' hin⟩
          obtain ⟨hl, hx | ⟨info, hm, hcr⟩⟩ := (hexact id).mp this
          · exact absurd hx hin
          · exact ⟨id, info, hin, hl.1, hm, hcr⟩

/-- C35: after an update that ended normally, the children follow the list that the device holds; if it holds none, they are the
same objects as before. -/
theorem C35_update (env : Env) (credentials kids : Bool) (w w' : World) (hwf : Dict.WF w.kids) (h : update env credentials kids w = (.ok (), w')) :
    (∀ v comps rs, childList w'.dev.last = some v → componentsById (Dict.get? w'.dev.last "get_child_device_component_list") = .ok comps →
      reports v = .ok rs → Follows env comps rs w w') ∧
    (childList w'.dev.last = none → SameKids w w') := by
  have h0 : credentials = true := by
    cases credentials with
    | true => rfl
    | false => cases h
  subst h0
  have hu : update env true kids w = (onDev (ownUpdate env) >>= fun _ => updateChildrenInfo env >>= fun changed =>
      updateKidsIf env (changed || kids) >>= fun _ => onDev initFeatures) w := rfl
  rw [hu] at h
  obtain ⟨_, w1, h1, h⟩ := bind_eq_ok h
  obtain ⟨ch, w2, h2, h⟩ := bind_eq_ok h
  obtain ⟨_, w3, h3, h⟩ := bind_eq_ok h
  have s1 := kids_onDev (ownUpdate env) w
  rw [h1] at s1
  have s3 := kids_update env (ch || kids) w2
  rw [h3] at s3
  have s4 := kids_onDev initFeatures w3
  rw [h] at s4
  have r2 := rest_childrenInfo env w1
  rw [h2] at r2
  have r3 := rest_updateKids env (ch || kids) w2
  rw [h3] at r3
  have r4 := rest_features w3
  rw [h] at r4
  have hlast : w'.dev.last = w1.dev.last := r4.last.trans (r3.last.trans r2.last)
  have hkids1 : w1.kids = w.kids := by
    have := congrArg (fun x : Except Exc Unit × World => x.2.kids) h1
    exact this.symm
  have hborn1 : w1.born = w.born := s1.born
  have s := SameKids.trans _ _ _ s3 s4
  obtain ⟨c1, c2⟩ := C35_lists env w1 w2 ch (by rw [hkids1]; exact hwf) h2
  rw [hlast]
  have hback : ∀ id d', Dict.get? w'.kids id = some d' → ∃ d, Dict.get? w2.kids id = some d ∧ SameChild d d' := by
    intro id d' hg
    have hk : id ∈ Dict.keys w2.kids := by
      rw [← s.keys]
      exact List.mem_map_of_mem (f := Prod.fst) (Dict.mem_of_get? hg)
    cases hg2 : Dict.get? w2.kids id with
    | none => exact absurd hk (Dict.get?_eq_none_iff.mp hg2)
    | some d =>
      obtain ⟨d'', hg'', hs⟩ := s.kid id d hg2
      rw [hg] at hg''
      cases hg''
      exact ⟨d, rfl, hs⟩
  refine ⟨?_, ?_⟩
  · intro v comps rs a b c
    obtain ⟨hf, _⟩ := c2 v comps rs a b c
    refine ⟨?_, ?_, ?_, ?_, ?_⟩
    · intro id
      rw [s.keys, hf.exact id, hkids1]
    · intro id d hg hl
      obtain ⟨d', hg', hu'⟩ := hf.kept id d (by rw [hkids1]; exact hg) hl
      obtain ⟨d'', hg'', hs⟩ := s.kid id d' hg'
      exact ⟨d'', hg'', hs.uid.trans hu'⟩
    · intro id d' hg hn
      obtain ⟨d, hg2, hs⟩ := hback id d' hg
      have := hf.created id d hg2 (by rw [hkids1]; exact hn)
      rw [hs.uid, hs.id, s.born, ← hborn1]
      exact this
    · intro id d' hg
      obtain ⟨d, hg2, hs⟩ := hback id d' hg
      rw [hs.info]
      exact hf.info id d hg2
    · unfold Dict.WF
      rw [s.keys]
      exact hf.wf
  · intro hn
    have := (c1 hn).1
    subst this
    exact SameKids.trans _ _ _ s1 s

/-! ## C36: what the modules of a child can read -/

/-- After the query of its modules nothing in an update changes what a child holds. -/
theorem child_last (env : Env) (l : Local) :
    (childUpdate env l).2.dev.last = (childQueryModules env (requestOf false (env.clock l.net.ticks) l.dev)
      { l with net := { l.net with ticks := l.net.ticks + 1 } }).2.dev.last := by
  have h0 : childUpdate env l = (childQueryModules env (requestOf false (env.clock l.net.ticks) l.dev) >>= fun _ =>
      postAll (env.clock l.net.ticks) (fun n => (dueNames false (env.clock l.net.ticks) l.dev).contains n) >>= fun _ =>
      modifyDev (fun d => { d with time := some (env.clock l.net.ticks) }) >>= fun _ => initFeatures)
        { l with net := { l.net with ticks := l.net.ticks + 1 } } := rfl
  rw [h0, bind_apply]
  cases childQueryModules env (requestOf false (env.clock l.net.ticks) l.dev) { l with net := { l.net with ticks := l.net.ticks + 1 } } with
  | mk r l1 =>
    cases r with
    | error e => rfl
    | ok x =>
      simp only
      have hR : Rel (fun a b : Local => b.dev.last = a.dev.last)
          (postAll (env.clock l.net.ticks) (fun n => (dueNames false (env.clock l.net.ticks) l.dev).contains n) >>= fun _ =>
            modifyDev (fun d => { d with time := some (env.clock l.net.ticks) }) >>= fun _ => initFeatures) := by
        refine Rel.bind (fun _ _ _ h h' => h'.trans h) (fun a => (same_postAll _ _ a).last) fun _ => ?_
        refine Rel.bind (fun _ _ _ h h' => h'.trans h) (fun a => rfl) fun _ a => ?_
        have h := feats_init a
        unfold SameButFeats at h
        rw [h]
      exact hR l1

/-- C36, as far as it holds: what a child holds after an update are the answers to this update's queries, whether they came together
or, when the combined query failed, one by one, so the modules that were queried can read them; and an update that queries nothing
leaves what the child held.

Missing: modules that were not queried in an update in which others were, see `C36_lost`. -/
theorem C36_queried_partial (env : Env) (l : Local) (req : Request) (hreq : req = requestOf false (env.clock l.net.ticks) l.dev) :
    (req = [] → (childUpdate env l).2.dev.last = l.dev.last) ∧
    (req ≠ [] → ∀ resp, env.answer l.net.asked.length l.dev.id req = .ok resp → (childUpdate env l).2.dev.last = resp) ∧
    (req ≠ [] → ∀ e, env.answer l.net.asked.length l.dev.id req = .error e → e.isException = true →
      (∀ (i : Nat) (p : String × Json), req[i]? = some p →
        ∀ e, env.answer (l.net.asked.length + 1 + i) l.dev.id [p] = .error e → e.isException = true) →
      (∀ (i : Nat) (p : String × Json), req[i]? = some p →
        Dict.get? (childUpdate env l).2.dev.last p.1 = some (outcome (env.answer (l.net.asked.length + 1 + i) l.dev.id [p]) p.1)) ∧
      (∀ k, k ∉ Dict.keys req → Dict.get? (childUpdate env l).2.dev.last k = none)) := by
  rw [child_last, ← hreq]
  unfold childQueryModules
  refine ⟨?_, ?_, ?_⟩
  · intro h
    subst h
    rfl
  · intro h resp hr
    have he : req.isEmpty = false := by
      cases req with
      | nil => exact absurd rfl h
      | cons a b => rfl
    rw [he]
    simp only [Bool.false_eq_true, if_false]
    rw [bind_ok (askModules_ok env req { l with net := { l.net with ticks := l.net.ticks + 1 } } resp hr)]
    rfl
  · intro h e hr hx hxs
    have he : req.isEmpty = false := by
      cases req with
      | nil => exact absurd rfl h
      | cons a b => rfl
    rw [he]
    simp only [Bool.false_eq_true, if_false]
    obtain ⟨r, h1, _, h3, h4⟩ := askModules_fallback env req (by rw [hreq]; exact request_wf _ _ _) { l with net := { l.net with ticks := l.net.ticks + 1 } } e hr hx hxs
    rw [bind_ok h1]
    exact ⟨h4, h3⟩

/-- C36 does not hold: when an update of a child queries some modules, every module whose methods are not among those answered can no
longer be read, whatever it could read before, unless the parent holds its data. -/
theorem C36_lost (env : Env) (l : Local) (req : Request) (hreq : req = requestOf false (env.clock l.net.ticks) l.dev) (hne : req ≠ [])
    (resp : Answers) (hr : env.answer l.net.asked.length l.dev.id req = .ok resp) (m : Mod) (k : String) (rest : List String)
    (hk : Dict.keys m.query = k :: rest) (hnot : Dict.has resp k = false) (hup : ∀ p, l.up = some p → Dict.has p k = false) (optional : List String) :
    SmartModule.data (Dict.keys m.query) optional (childUpdate env l).2.dev.last l.up = .error .kasa := by
  rw [(C36_queried_partial env l req hreq).2.1 hne resp hr]
  exact (SmartModule.C45_no_data (Dict.keys m.query) optional resp l.up).2 k (by rw [hk]; rfl) hnot hup

/-! ## A device -/

namespace Example

def cls (name component : String) (methods : List String) (first : Bool) (interval : Nat) : Cls :=
  ⟨name, component, [], false, first, interval, fun _ => methods.map (fun m => (m, Json.null)), fun _ => .ok true, fun _ => .ok (), fun _ => .ok [name]⟩

def reg : Registry :=
  ⟨[cls "DeviceModule" "device" ["get_device_info"] true 0, cls "Cloud" "cloud_connect" ["get_connect_cloud_state"] true 60,
    cls "ChildDevice" "child_device" ["get_child_device_list"] true 10,
    cls "Energy" "energy_monitoring" ["get_energy_usage", "get_current_power"] false 60, cls "Time" "time" ["get_device_time"] false 0,
    cls "Trigger" "trigger_log" ["get_trigger_logs"] false 5, cls "Report" "report_mode" ["get_report_mode"] false 5],
   cls "Light" "" [] false 0, cls "Thermostat" "" [] false 0⟩

def comp (id : String) : Json := .obj [("id", .str id), ("ver_code", .num 1)]
def kid (id : String) : Json := .obj [("device_id", .str id), ("nickname", .str "x")]

/-- A hub with two children. -/
def device (m : String) : Entry :=
  if m = "get_device_info" then .value (.obj [("device_id", .str "D"), ("type", .str "SMART.TAPOHUB"), ("device_on", .bool true)])
  else if m = "component_nego" then .value (.obj [("component_list", .arr [comp "device", comp "time", comp "energy_monitoring", comp "child_device"])])
  else if m = "get_child_device_list" then .value (.obj [("child_device_list", .arr [kid "A", kid "B"]), ("sum", .num 2)])
  else if m = "get_child_device_component_list" then
    .value (.obj [("child_component_list", .arr [.obj [("device_id", .str "A"), ("component_list", .arr [comp "trigger_log", comp "report_mode"])],
      .obj [("device_id", .str "B"), ("component_list", .arr [])]])])
  else .value (.str m)

def env : Env := ⟨fun _ _ req => .ok (answers device req), fun n => 100 + n, reg, fun _ => true⟩

/-- After an update. -/
def once : World := (update env true true newWorld).2

example : (update env true true newWorld).1.isOk = true := by decide +kernel
example : Dict.keys once.dev.mods = ["Time", "DeviceModule", "ChildDevice", "Energy"] := by decide +kernel
example : once.dev.feats = ["device_id", "state", "reboot", "Time", "DeviceModule", "ChildDevice", "Energy"] := by decide +kernel
example : once.kids.map (fun p => (p.1, p.2.uid)) = [("A", 1), ("B", 2)] := by decide +kernel
example : once.net.asked.length = 4 := by decide +kernel
example : once.dev.time = some 100 ∧ Dict.WF once.dev.mods ∧ Dict.WF once.dev.last := by
  unfold Dict.WF
  decide +kernel

/-- From the second update on combined queries fail, and so does asking for the energy usage. -/
def flaky : Env :=
  { env with answer := fun n id req =>
      if n ≥ 4 && (decide (req.length ≥ 2) || Dict.has req "get_energy_usage") then .error (.timeout) else env.answer n id req }

/-- The hypotheses of `C33_fallback` hold in the second update (a hundred seconds later), and this is what it does. -/
def late : Env := { flaky with clock := fun n => 100 + 100 * n }
def slow : World := (update late true false once).2

example : requestOf false (late.clock once.net.ticks) once.dev =
    [("get_device_time", .null), ("get_device_info", .null), ("get_child_device_list", .null), ("get_energy_usage", .null), ("get_current_power", .null)] := by
  decide +kernel
example : (late.answer once.net.asked.length once.dev.id (requestOf false (late.clock once.net.ticks) once.dev)).isOk = false := by decide +kernel
example : slow.net.asked.length = 4 + 1 + 5 := by decide +kernel
example : Dict.get? slow.dev.last "get_energy_usage" = some (.error (-100001)) ∧ Dict.get? slow.dev.last "get_device_time" = some (.value (.str "get_device_time"))
    ∧ Dict.get? slow.dev.last "get_current_power" = some (.value (.str "get_current_power")) := by decide +kernel
example : SmartModule.data ["get_energy_usage", "get_current_power"] ["get_current_power"] slow.dev.last none = .error (.device (some (-100001))) ∧
    SmartModule.data ["get_device_time"] [] slow.dev.last none = .ok (.bare (.value (.str "get_device_time"))) := by decide +kernel

/-- If the device info fails too, the update raises. -/
def worse : Env := { late with answer := fun n id req => if n ≥ 4 && Dict.has req "get_device_info" then .error .kasa else late.answer n id req }

example : (update worse true false once).1 = .error .kasa := by decide +kernel

/-- The modules' bookkeeping: at the later update the energy module was queried and failed reading; its hook here does not fail. -/
example : (Dict.get? slow.dev.mods "Energy").map (·.sched) = some (step ⟨60, false⟩ ⟨some 100, false, 0⟩ (.update (late.clock once.net.ticks) true true)) := by
  decide +kernel

/-- A device whose first query fails: stuck. -/
def dead : Env := { env with answer := fun n id req => if n = 0 then .error .timeout else env.answer n id req }

example : dead.answer 0 none initialQuery = .error .timeout ∧ (∀ n, dead.answer (n + 1) none [] = .ok []) := ⟨rfl, fun _ => rfl⟩
example : (update dead true true newWorld).1 = .error .timeout ∧
    (update dead true true (update dead true true newWorld).2).1 = .error .kasa := by decide +kernel

/-- A device whose first update is interrupted in the query of the modules, the third here. -/
example : ((update (interruptedAt env 2 .base) true true newWorld).1 = .error .base) ∧
    ((update (interruptedAt env 2 .base) true true (update (interruptedAt env 2 .base) true true newWorld).2).1 = .ok ()) ∧
    ((update (interruptedAt env 2 .base) true true (update (interruptedAt env 2 .base) true true newWorld).2).2.dev.last = once.dev.last) := by
  decide +kernel
example : ∀ c ∈ env.reg.classes, c.name = "Cloud" → c.firstUpdate = true := by decide +kernel
example : (Dict.get? once.dev.mods "DeviceModule").map (fun m => (m.cls.interval, Dict.keys m.query)) = some (0, ["get_device_info"]) := by decide +kernel

/-- One child leaves, another joins. -/
def moved (m : String) : Entry :=
  if m = "get_child_device_list" then .value (.obj [("child_device_list", .arr [kid "B", kid "C", kid "E"]), ("sum", .num 3)])
  else if m = "get_child_device_component_list" then
    .value (.obj [("child_component_list", .arr [.obj [("device_id", .str "C"), ("component_list", .arr [comp "report_mode"])],
      .obj [("device_id", .str "B"), ("component_list", .arr [])]])])
  else device m

/-- The children's module asks for both lists. -/
def hub : Env :=
  ⟨fun n _ req => .ok (answers (if n < 4 then device else moved) req), fun n => 100 + 100 * n,
   { reg with classes := cls "ChildDevice" "child_device" ["get_child_device_list", "get_child_device_component_list"] true 10 :: reg.classes.filter (·.name ≠ "ChildDevice") }, fun _ => true⟩

example : ((update hub true true (update hub true true newWorld).2).2.kids).map (fun p => (p.1, p.2.uid)) = [("B", 2), ("C", 3)] := by decide +kernel

/-- A child of the hub: both modules were read once. -/
def child : Local := ⟨((Dict.get? once.kids "A").getD newDev), some once.dev.last, once.net⟩

/-- A command of one of its modules was called. -/
def commanded : Local :=
  { child with dev := { child.dev with mods := child.dev.mods.map fun p => if p.1 = "Report" then (p.1, { p.2 with sched := step ⟨5, true⟩ p.2.sched .command }) else p } }

example : SmartModule.data ["get_trigger_logs"] [] child.dev.last child.up = .ok (.bare (.value (.str "get_trigger_logs"))) := by decide +kernel
example : requestOf false (env.clock commanded.net.ticks) commanded.dev = [("get_report_mode", .null)] := by decide +kernel
example : (childUpdate env commanded).1.isOk = true ∧
    SmartModule.data ["get_trigger_logs"] [] (childUpdate env commanded).2.dev.last child.up = .error .kasa ∧
    SmartModule.data ["get_report_mode"] [] (childUpdate env commanded).2.dev.last child.up = .ok (.bare (.value (.str "get_report_mode"))) := by
  decide +kernel

end Example

end Kasa.SmartDevice
