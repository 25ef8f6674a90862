import Verif.Spec.Connect
import Verif.Props.Factory
/-!
# C21, C51: connections are closed
-/

namespace Kasa.Connect

open Config Factory ConnectSpec

/-! ## Traces -/

/-- Only queries and updates of protocol `id`. -/
def OnlyOf (id : Nat) (tr : List Event) : Prop :=
  ∀ e ∈ tr, (∃ ok, e = .asked id ok) ∨ (∃ c ok, e = .updated id c ok)

theorem log_apply (e : Event) (w : W) : log e w = (.ok (), w ++ [e]) := rfl

theorem close_apply (env : Env) (id : Nat) (w : W) : close env id w = (env.close w, w ++ [.closed id]) := by
  unfold close
  simp only [PyM.bind_apply, PyM.get_apply, log_apply, PyM.lift_apply]

/-- The update of a device and what follows. -/
theorem update_then (env : Env) (p : Protocol) (cls : DevClass) (w : W) :
    (∃ e, (do update env p cls; pure { cls, protocol := p.id } : PyM W Device) w =
      (.error e, w ++ [.updated p.id cls false])) ∨
    (do update env p cls; pure { cls, protocol := p.id } : PyM W Device) w =
      (.ok { cls, protocol := p.id }, w ++ [.updated p.id cls true]) := by
  simp only [PyM.bind_apply]
  unfold update
  cases h : env.update w with
  | ok _ => right; simp only [PyM.bind_apply, PyM.get_apply, h, log_apply]; rfl
  | error e => left; refine ⟨e, ?_⟩; simp only [PyM.bind_apply, PyM.get_apply, h, log_apply]; rfl

/-- What `_connect` does: it uses only the given protocol; when it returns, its last act was the successful update of the
device it returns; when it raises, no update succeeded. -/
theorem connectWith_trace (env : Env) (c : DeviceConfig) (p : Protocol) (w : W) :
    (∃ e tr, connectWith env c p w = (.error e, w ++ tr) ∧ OnlyOf p.id tr ∧ (∀ cls, Event.updated p.id cls true ∉ tr) ∧
      (classFromFamily c.connectionType.family.value c.connectionType.https false = none ∨ tr ≠ [])) ∨
    (∃ dev tr, connectWith env c p w = (.ok dev, w ++ (tr ++ [.updated p.id dev.cls true])) ∧ OnlyOf p.id tr ∧
      dev.protocol = p.id) := by
  unfold connectWith
  by_cases hx : p.proto = .iot ∧ p.transport = .xor
  · rw [if_pos hx]
    unfold connectLegacy
    rw [PyM.bind_apply]
    cases ha : env.answer w with
    | error e =>
      left
      refine ⟨e, [.asked p.id false], ?_, ?_, ?_, Or.inr (by simp)⟩
      · unfold query; simp only [PyM.bind_apply, PyM.get_apply, ha, log_apply]; rfl
      · intro ev hm; left; simp only [List.mem_singleton] at hm; exact ⟨_, hm⟩
      · simp
    | ok info =>
      have hq : query env p w = (.ok info, w ++ [.asked p.id true]) := by
        unfold query; simp only [PyM.bind_apply, PyM.get_apply, ha, log_apply]; rfl
      simp only [hq]
      have only1 : OnlyOf p.id [.asked p.id true] := by
        intro ev hm; left; simp only [List.mem_singleton] at hm; exact ⟨_, hm⟩
      rw [PyM.bind_apply]
      cases hc : SysInfo.classOf env.lower info with
      | error e =>
        left
        exact ⟨e, _, rfl, only1, by simp, Or.inr (by simp)⟩
      | ok k =>
        simp only [PyM.lift_ok_apply, PyM.bind_apply, PyM.get_apply, PyM.lift_apply]
        cases hf : env.fill (w ++ [.asked p.id true]) info with
        | error e =>
          left
          exact ⟨e, _, rfl, only1, by simp, Or.inr (by simp)⟩
        | ok _ =>
          simp only
          rcases update_then env p (.iot k) (w ++ [.asked p.id true]) with ⟨e, h⟩ | h
          · left
            simp only [PyM.bind_apply] at h
            refine ⟨e, [.asked p.id true, .updated p.id (.iot k) false], ?_, ?_, ?_, Or.inr (by simp)⟩
            · rw [h, List.append_assoc]; rfl
            · intro ev hm
              simp only [List.mem_cons, List.not_mem_nil, or_false] at hm
              rcases hm with rfl | rfl
              · exact Or.inl ⟨_, rfl⟩
              · exact Or.inr ⟨_, _, rfl⟩
            · simp
          · right
            simp only [PyM.bind_apply] at h
            refine ⟨⟨.iot k, p.id⟩, [.asked p.id true], ?_, only1, rfl⟩
            rw [h, List.append_assoc]
  · rw [if_neg hx]
    cases hk : classFromFamily c.connectionType.family.value c.connectionType.https false with
    | none => left; exact ⟨.unsupported, [], by simp, (by intro ev hm; cases hm), by simp, Or.inl rfl⟩
    | some cls =>
      simp only
      rcases update_then env p cls w with ⟨e, h⟩ | h
      · left
        refine ⟨e, _, h, ?_, by simp, Or.inr (by simp)⟩
        intro ev hm
        simp only [List.mem_singleton] at hm
        exact Or.inr ⟨_, _, hm⟩
      · right
        exact ⟨⟨cls, p.id⟩, [], h, (by intro ev hm; cases hm), rfl⟩

theorem create_apply (c : DeviceConfig) (strict : Bool) (w : W) :
    create c strict w = match getProtocol c strict with
      | some (proto, transport) =>
        (.ok (some { id := nextId w, proto, transport }), w ++ [.created (nextId w) c proto transport])
      | none => (.ok none, w) := by
  unfold create
  simp only [PyM.bind_apply, PyM.get_apply]
  cases getProtocol c strict with
  | none => rfl
  | some x => obtain ⟨proto, transport⟩ := x; simp only [PyM.bind_apply, log_apply]; rfl

theorem connect_run (env : Env) (host : Option String) (config : Option DeviceConfig) (w : W) :
    (∃ e, connect env host config w = (.error e, w)) ∨
    (∃ c proto transport, resolve host config = .ok c ∧ getProtocol c false = some (proto, transport) ∧
      connect env host config w =
        connectOrClose env c { id := nextId w, proto, transport } (w ++ [.created (nextId w) c proto transport])) := by
  unfold connect
  simp only [PyM.bind_apply, PyM.lift_apply]
  cases hr : resolve host config with
  | error e => left; exact ⟨e, rfl⟩
  | ok c =>
    simp only [create_apply]
    cases hg : getProtocol c false with
    | none => left; exact ⟨.unsupported, rfl⟩
    | some x =>
      obtain ⟨proto, transport⟩ := x
      right
      exact ⟨c, proto, transport, rfl, hg, rfl⟩

/-! ## C21 -/

/-- C21: if `connect()` raises, whatever and wherever, then the protocol it created, if any, has been closed, as the last
thing that happened. -/
theorem C21_raise (env : Env) (host : Option String) (config : Option DeviceConfig) (w w' : W) (e : Exc)
    (h : connect env host config w = (.error e, w')) :
    ∃ tr, w' = w ++ tr ∧ ∀ id c p t, Event.created id c p t ∈ tr → tr.getLast? = some (.closed id) := by
  rcases connect_run env host config w with ⟨e', h1⟩ | ⟨c, proto, transport, -, -, h1⟩
  · rw [h1] at h
    cases h
    exact ⟨[], by simp, by simp⟩
  · rw [h1] at h
    unfold connectOrClose at h
    rcases connectWith_trace env c ⟨nextId w, proto, transport⟩ (w ++ [.created (nextId w) c proto transport]) with
      ⟨e2, tr, h2, ho, -, -⟩ | ⟨dev, tr, h2, -, -⟩
    · rw [PyM.tryExcept_error h2] at h
      simp only [PyM.bind_apply, close_apply] at h
      have hw : w' = (w ++ [.created (nextId w) c proto transport]) ++ tr ++ [.closed (nextId w)] := by
        revert h
        cases env.close _ <;> simp only [PyM.raise_apply, Prod.mk.injEq] <;> intro h <;> exact h.2.symm
      refine ⟨[.created (nextId w) c proto transport] ++ tr ++ [.closed (nextId w)], by rw [hw]; simp, ?_⟩
      intro id c' p t hm
      simp only [List.mem_append, List.mem_singleton, Event.created.injEq, reduceCtorEq, or_false] at hm
      rcases hm with ⟨rfl, -⟩ | hm
      · rw [List.getLast?_append]; rfl
      · rcases ho _ hm with ⟨_, h⟩ | ⟨_, _, h⟩ <;> cases h
    · rw [PyM.tryExcept_ok h2] at h
      cases h

/-- C21: closing does not hide the failure: if closing works, the exception is the one that made connecting fail. -/
theorem C21_same_error (env : Env) (c : DeviceConfig) (p : Protocol) (w w' : W) (e : Exc)
    (hcl : ∀ w, env.close w = .ok ()) (h : connectWith env c p w = (.error e, w')) :
    connectOrClose env c p w = (.error e, w' ++ [.closed p.id]) := by
  unfold connectOrClose
  rw [PyM.tryExcept_error h]
  simp only [PyM.bind_apply, close_apply, hcl, PyM.raise_apply]

/-- C21: if `connect()` returns a device, it created one protocol, for the configuration asked for, which the device uses;
it was not closed, and the last thing that happened was a successful update of the device. -/
theorem C21_return (env : Env) (host : Option String) (config : Option DeviceConfig) (w w' : W) (dev : Device)
    (h : connect env host config w = (.ok dev, w')) :
    ∃ c p t tr, resolve host config = .ok c ∧ getProtocol c false = some (p, t) ∧
      w' = w ++ .created dev.protocol c p t :: (tr ++ [.updated dev.protocol dev.cls true]) ∧
      (∀ id, Event.closed id ∉ tr) ∧ (∀ id c p t, Event.created id c p t ∉ tr) := by
  rcases connect_run env host config w with ⟨e', h1⟩ | ⟨c, proto, transport, hr, hg, h1⟩
  · rw [h1] at h
    cases h
  · rw [h1] at h
    unfold connectOrClose at h
    rcases connectWith_trace env c ⟨nextId w, proto, transport⟩ (w ++ [.created (nextId w) c proto transport]) with
      ⟨e2, tr, h2, ho, -, -⟩ | ⟨dev', tr, h2, ho, hp⟩
    · rw [PyM.tryExcept_error h2] at h
      simp only [PyM.bind_apply, close_apply] at h
      revert h
      cases env.close _ <;> simp [PyM.raise_apply]
    · rw [PyM.tryExcept_ok h2] at h
      cases h
      refine ⟨c, proto, transport, tr, hr, hg, by simp [hp], ?_, ?_⟩
      · intro id hm
        rcases ho _ hm with ⟨_, h⟩ | ⟨_, _, h⟩ <;> cases h
      · intro id _ _ _ hm
        rcases ho _ hm with ⟨_, h⟩ | ⟨_, _, h⟩ <;> cases h

/-- C20: a connection type without protocol makes `connect()` raise `UnsupportedDeviceError`, having done nothing. -/
theorem C20_connect_unsupported (env : Env) (c : DeviceConfig) (w : W) (h : getProtocol c false = none) :
    connect env none (some c) w = (.error .unsupported, w) := by
  unfold connect
  have : resolve none (some c) = .ok c := rfl
  simp only [PyM.bind_apply, this, PyM.lift_apply, create_apply, h]
  rfl

/-- C20: `connect()` needs a host or a configuration and not both, else it raises having done nothing; a host alone means
the default configuration for it. -/
theorem C20_connect_arguments (env : Env) (host : String) (c : DeviceConfig) (w : W) (hh : host ≠ "") :
    connect env (some host) (some c) w = (.error .kasa, w) ∧ connect env none none w = (.error .kasa, w) ∧
    connect env (some "") none w = (.error .kasa, w) ∧
    connect env (some host) none w = connect env none (some (ofHost host)) w ∧
    connect env (some "") (some c) w = connect env none (some c) w := by
  have h0 : (if some host = some "" then none else some host) = some host := if_neg (by simpa using hh)
  have h1 : resolve (some host) (some c) = .error .kasa := by unfold resolve; rw [h0]
  have h2 : resolve (some host) none = resolve none (some (ofHost host)) := by unfold resolve; rw [h0]; rfl
  refine ⟨?_, rfl, rfl, ?_, rfl⟩
  · unfold connect
    rw [h1]
    rfl
  · unfold connect
    rw [h2]

/-! ## C51 -/

theorem onAttempt_trace (env : Env) (wanted : Bool) (p : Protocol) (ok : Bool) (w : W) :
    ∃ r tr, onAttempt env wanted p ok w = (r, w ++ tr) ∧ (∀ e ∈ tr, e = .attempt p.id ok) ∧
      (wanted = true → Event.attempt p.id ok ∈ tr) := by
  unfold onAttempt
  cases wanted with
  | false => exact ⟨.ok (), [], by simp, by simp, by simp⟩
  | true =>
    refine ⟨env.callback w, [.attempt p.id ok], ?_, by simp, by simp⟩
    simp only [if_true, PyM.bind_apply, PyM.get_apply, log_apply, PyM.lift_apply]

/-- One attempt: uses only its protocol; returns the device that was updated, or nothing if none was. -/
theorem tryOne_trace (env : Env) (wanted : Bool) (p : Protocol) (c : DeviceConfig) (w : W) :
    ∃ r tr, tryOne env wanted p c w = (r, w ++ tr) ∧ (∀ e ∈ tr, Uses p.id e) ∧
      (∀ dev, r = .ok (some dev) → dev.protocol = p.id ∧ Event.updated p.id dev.cls true ∈ tr ∧
        (wanted = true → Event.attempt p.id true ∈ tr)) ∧
      (r = .ok none → (∀ cls, Event.updated p.id cls true ∉ tr) ∧ (wanted = true → Event.attempt p.id false ∈ tr) ∧
        (classFromFamily c.connectionType.family.value c.connectionType.https false = none ∨ tr ≠ [])) := by
  unfold tryOne
  have uses : ∀ tr, OnlyOf p.id tr → ∀ e ∈ tr, Uses p.id e := by
    intro tr ho e hm
    rcases ho e hm with ⟨ok, rfl⟩ | ⟨c, ok, rfl⟩
    · exact .asked ok
    · exact .updated c ok
  rcases connectWith_trace env c p w with ⟨e, tr, h, ho, hn, hne⟩ | ⟨dev, tr, h, ho, hp⟩
  · rw [h]
    simp only
    by_cases hx : e.isException = true
    · rw [if_pos hx]
      obtain ⟨r2, tr2, h2, ha, hw⟩ := onAttempt_trace env wanted p false (w ++ tr)
      have huses : ∀ e ∈ tr ++ tr2, Uses p.id e := by
        intro e hm
        rcases List.mem_append.mp hm with hm | hm
        · exact uses tr ho e hm
        · rw [ha e hm]; exact .attempt _
      have hnot : ∀ cls, Event.updated p.id cls true ∉ tr ++ tr2 := by
        intro cls hm
        rcases List.mem_append.mp hm with hm | hm
        · exact hn cls hm
        · have := ha _ hm; cases this
      cases r2 with
      | ok _ =>
        refine ⟨.ok none, tr ++ tr2, ?_, huses, by simp, fun _ => ⟨hnot, fun hq => List.mem_append_right _ (hw hq), ?_⟩⟩
        · rw [PyM.bind_ok h2, ← List.append_assoc]
          rfl
        · rcases hne with h | h
          · exact Or.inl h
          · exact Or.inr (by simp [h])
      | error e2 =>
        refine ⟨.error e2, tr ++ tr2, ?_, huses, by simp, by simp⟩
        rw [PyM.bind_error h2, ← List.append_assoc]
    · rw [if_neg hx]
      exact ⟨.error e, tr, rfl, uses tr ho, by simp, by simp⟩
  · rw [h]
    simp only
    obtain ⟨r2, tr2, h2, ha, hw⟩ := onAttempt_trace env wanted p true (w ++ (tr ++ [.updated p.id dev.cls true]))
    have huses : ∀ e ∈ tr ++ [.updated p.id dev.cls true] ++ tr2, Uses p.id e := by
      intro e hm
      rcases List.mem_append.mp hm with hm | hm
      · rcases List.mem_append.mp hm with hm | hm
        · exact uses tr ho e hm
        · rw [List.mem_singleton.mp hm]; exact .updated _ _
      · rw [ha e hm]; exact .attempt _
    cases r2 with
    | ok _ =>
      refine ⟨.ok (some dev), tr ++ [.updated p.id dev.cls true] ++ tr2, ?_, huses, ?_, by simp⟩
      · rw [PyM.bind_ok h2]
        simp
      · rintro _ ⟨⟩
        exact ⟨hp, by simp, fun hq => List.mem_append_right _ (hw hq)⟩
    | error e2 =>
      refine ⟨.error e2, tr ++ [.updated p.id dev.cls true] ++ tr2, ?_, huses, by simp, by simp⟩
      rw [PyM.bind_error h2]
      simp

theorem uses_id {i j : Nat} {e : Event} (h1 : Uses i e) (h2 : Uses j e) : i = j := by
  cases h1 <;> cases h2 <;> rfl

/-- The loop over candidates. -/
theorem tryEach_trace (env : Env) (wanted : Bool) :
    ∀ (cs : List (Key × Protocol × DeviceConfig)) (w : W), (cs.map (fun x => x.2.1.id)).Nodup →
      (∀ x ∈ cs, classFromFamily x.2.2.connectionType.family.value x.2.2.connectionType.https false ≠ none) →
    ∃ r tr, tryEach env wanted cs w = (r, w ++ tr) ∧
      (∀ e ∈ tr, ∃ x ∈ cs, e = .closed x.2.1.id ∨ Uses x.2.1.id e) ∧
      (∀ id, (∃ e ∈ tr, Uses id e) → ClosedForGood id tr) ∧
      (∀ dev, r = .ok (some dev) → ∃ x ∈ cs, dev.protocol = x.2.1.id ∧ Event.updated x.2.1.id dev.cls true ∈ tr ∧
        (wanted = true → Event.attempt x.2.1.id true ∈ tr) ∧ ∀ id cls, Event.updated id cls true ∈ tr → id = x.2.1.id) ∧
      (r = .ok none → (∀ x ∈ cs, (∃ e ∈ tr, Uses x.2.1.id e) ∧ (wanted = true → Event.attempt x.2.1.id false ∈ tr)) ∧
        ∀ id cls, Event.updated id cls true ∉ tr)
  | [], w, _, _ => ⟨.ok none, [], by simp [tryEach], by simp, by simp, by simp, by simp⟩
  | x :: rest, w, hn, hcls => by
    obtain ⟨k, p, c⟩ := x
    simp only [List.map_cons, List.nodup_cons] at hn
    obtain ⟨hx, hn⟩ := hn
    obtain ⟨r1, tr1, h1, hu1, hs1, hn1⟩ := tryOne_trace env wanted p c w
    unfold tryEach
    have hfin : PyM.tryFinally (tryOne env wanted p c) (close env p.id) w =
        (match env.close (w ++ tr1) with | .ok _ => r1 | .error e => .error e, w ++ tr1 ++ [.closed p.id]) := by
      unfold PyM.tryFinally
      rw [h1]
      simp only [close_apply]
      cases env.close (w ++ tr1) <;> rfl
    have hev : ∀ e ∈ tr1 ++ [.closed p.id], ∃ x ∈ (k, p, c) :: rest, e = .closed x.2.1.id ∨ Uses x.2.1.id e := by
      intro e hm
      refine ⟨_, List.mem_cons_self, ?_⟩
      rcases List.mem_append.mp hm with hm | hm
      · exact Or.inr (hu1 e hm)
      · exact Or.inl (List.mem_singleton.mp hm)
    have hcl : ∀ id, (∃ e ∈ tr1 ++ [.closed p.id], Uses id e) → ClosedForGood id (tr1 ++ [.closed p.id]) := by
      rintro id ⟨e, hm, hu⟩
      rcases List.mem_append.mp hm with hm | hm
      · rw [uses_id hu (hu1 e hm)]
        exact ⟨tr1, [], rfl, by simp⟩
      · rw [List.mem_singleton.mp hm] at hu; cases hu
    have herr : ∀ e : Exc, PyM.tryFinally (tryOne env wanted p c) (close env p.id) w =
        (.error e, w ++ tr1 ++ [.closed p.id]) → ∃ r tr,
          (PyM.tryFinally (tryOne env wanted p c) (close env p.id) >>= fun r => match r with
            | some dev => pure (some dev)
            | none => tryEach env wanted rest) w = (r, w ++ tr) ∧
      (∀ e ∈ tr, ∃ x ∈ (k, p, c) :: rest, e = .closed x.2.1.id ∨ Uses x.2.1.id e) ∧
      (∀ id, (∃ e ∈ tr, Uses id e) → ClosedForGood id tr) ∧
      (∀ dev, r = .ok (some dev) → ∃ x ∈ (k, p, c) :: rest, dev.protocol = x.2.1.id ∧
        Event.updated x.2.1.id dev.cls true ∈ tr ∧
        (wanted = true → Event.attempt x.2.1.id true ∈ tr) ∧ ∀ id cls, Event.updated id cls true ∈ tr → id = x.2.1.id) ∧
      (r = .ok none → (∀ x ∈ (k, p, c) :: rest, (∃ e ∈ tr, Uses x.2.1.id e) ∧
        (wanted = true → Event.attempt x.2.1.id false ∈ tr)) ∧ ∀ id cls, Event.updated id cls true ∉ tr) := by
      intro e he
      refine ⟨.error e, tr1 ++ [.closed p.id], ?_, hev, hcl, by simp, by simp⟩
      rw [PyM.bind_error he, List.append_assoc]
    cases hc : env.close (w ++ tr1) with
    | error e => exact herr e (by rw [hfin, hc])
    | ok _ =>
      rw [hc] at hfin
      cases r1 with
      | error e => exact herr e (by rw [hfin])
      | ok o =>
        cases o with
        | some dev =>
          obtain ⟨hp, hm, hq⟩ := hs1 dev rfl
          refine ⟨.ok (some dev), tr1 ++ [.closed p.id], ?_, hev, hcl, ?_, by simp⟩
          · rw [PyM.bind_ok hfin, List.append_assoc]; rfl
          · rintro _ ⟨⟩
            refine ⟨_, List.mem_cons_self, hp, by simp [hm], fun h => List.mem_append_left _ (hq h), ?_⟩
            intro id cls hm
            rcases List.mem_append.mp hm with hm | hm
            · exact uses_id (.updated cls true) (hu1 _ hm)
            · simp at hm
        | none =>
          obtain ⟨hno, hq, hne⟩ := hn1 rfl
          obtain ⟨r2, tr2, h2, he2, hc2, hs2, hn2⟩ := tryEach_trace env wanted rest (w ++ tr1 ++ [.closed p.id]) hn
            (fun x hx => hcls x (List.mem_cons_of_mem _ hx))
          have hnot : ∀ e ∈ tr2, ¬ Uses p.id e := by
            intro e hm hu
            obtain ⟨y, hy, h | h⟩ := he2 e hm
            · rw [h] at hu; cases hu
            · exact hx (List.mem_map.mpr ⟨y, hy, uses_id h hu⟩)
          have hpc : ClosedForGood p.id (tr1 ++ [.closed p.id] ++ tr2) := ⟨tr1, tr2, by simp, hnot⟩
          have lift : ∀ id, ClosedForGood id tr2 → ClosedForGood id (tr1 ++ [.closed p.id] ++ tr2) := by
            rintro id ⟨a, b, rfl, hb⟩
            exact ⟨tr1 ++ [.closed p.id] ++ a, b, by simp, hb⟩
          have hup : ∀ id cls, Event.updated id cls true ∈ tr1 ++ [.closed p.id] ++ tr2 → Event.updated id cls true ∈ tr2 := by
            intro id cls hm
            rcases List.mem_append.mp hm with hm | hm
            · rcases List.mem_append.mp hm with hm | hm
              · have : id = p.id := uses_id (.updated cls true) (hu1 _ hm)
                subst this
                exact absurd hm (hno cls)
              · simp at hm
            · exact hm
          refine ⟨r2, tr1 ++ [.closed p.id] ++ tr2, ?_, ?_, ?_, ?_, ?_⟩
          · rw [PyM.bind_ok hfin]
            show tryEach env wanted rest _ = _
            rw [h2]
            simp
          · intro e hm
            rcases List.mem_append.mp hm with hm | hm
            · exact hev e hm
            · obtain ⟨y, hy, h⟩ := he2 e hm
              exact ⟨y, List.mem_cons_of_mem _ hy, h⟩
          · rintro id ⟨e, hm, hu⟩
            rcases List.mem_append.mp hm with hm | hm
            · rcases List.mem_append.mp hm with hm | hm
              · rw [uses_id hu (hu1 e hm)]; exact hpc
              · rw [List.mem_singleton.mp hm] at hu; cases hu
            · exact lift id (hc2 id ⟨e, hm, hu⟩)
          · intro dev hd
            obtain ⟨y, hy, h3, h4, h6, h5⟩ := hs2 dev hd
            exact ⟨y, List.mem_cons_of_mem _ hy, h3, List.mem_append_right _ h4, fun h => List.mem_append_right _ (h6 h),
              fun id cls hm => h5 id cls (hup id cls hm)⟩
          · intro hr
            obtain ⟨h3, h4⟩ := hn2 hr
            refine ⟨?_, fun id cls hm => h4 id cls (hup id cls hm)⟩
            intro y hy
            rcases List.mem_cons.mp hy with rfl | hy
            · refine ⟨?_, fun h => List.mem_append_left _ (List.mem_append_left _ (hq h))⟩
              rcases hne with hne | hne
              · exact absurd hne (hcls _ List.mem_cons_self)
              · obtain ⟨e, es, he⟩ := List.exists_cons_of_ne_nil hne
                refine ⟨e, by simp [he], hu1 e (by simp [he])⟩
            · obtain ⟨⟨e, he, hu⟩, h6⟩ := h3 y hy
              exact ⟨⟨e, List.mem_append_right _ he, hu⟩, fun h => List.mem_append_right _ (h6 h)⟩

/-! ### The candidates -/

/-- A candidate: its protocol was created for its configuration, which is the base configuration with one of the parameters
tried, and its key says what it is. -/
def Good (base : DeviceConfig) (order : List Family) (w : W) (k : Key) (p : Protocol) (c : DeviceConfig) : Prop :=
  Event.created p.id c p.proto p.transport ∈ w ∧
  (∃ params ∈ paramsTried order, c = { base with connectionType := params }) ∧
  getProtocol c true = some (p.proto, p.transport) ∧
  k.1 = p.proto ∧ k.2.1 = p.transport ∧ k.2.2.2 = c.connectionType.https ∧
  classFromFamily c.connectionType.family.value c.connectionType.https true = some k.2.2.1

/-- The state of building the candidates. -/
structure Built (base : DeviceConfig) (order : List Family) (acc : Dict Key (Protocol × DeviceConfig)) (w : W) : Prop where
  good : ∀ x ∈ acc, Good base order w x.1 x.2.1 x.2.2
  ids : (acc.map (fun x => x.2.1.id)).Nodup
  fresh : ∀ x ∈ acc, x.2.1.id < nextId w
  only : ∀ e ∈ w, ∃ i c p t, e = .created i c p t
  below : ∀ i c p t, .created i c p t ∈ w → i < nextId w
  unique : ∀ i c p t c' p' t', .created i c p t ∈ w → .created i c' p' t' ∈ w → c = c'

theorem nextId_append (w : W) (e : Event) :
    nextId (w ++ [e]) = match e with | .created .. => nextId w + 1 | _ => nextId w := by
  induction w with
  | nil => cases e <;> rfl
  | cons x w ih => cases x <;> cases e <;> simp only [List.cons_append, nextId] at ih ⊢ <;> omega

theorem mem_set {α β : Type} [DecidableEq α] {d : Dict α β} {k : α} {v : β} {x : α × β} (h : x ∈ Dict.set d k v) :
    x = (k, v) ∨ x ∈ d := by
  induction d with
  | nil => simp only [Dict.set, List.mem_singleton] at h; exact Or.inl h
  | cons y d ih =>
    obtain ⟨a, b⟩ := y
    unfold Dict.set at h
    by_cases hk : a = k
    · rw [if_pos hk] at h
      rcases List.mem_cons.mp h with h | h
      · rw [hk] at h; exact Or.inl h
      · exact Or.inr (List.mem_cons_of_mem _ h)
    · rw [if_neg hk] at h
      rcases List.mem_cons.mp h with h | h
      · exact Or.inr (h ▸ List.mem_cons_self)
      · rcases ih h with h | h
        · exact Or.inl h
        · exact Or.inr (List.mem_cons_of_mem _ h)

theorem nodup_set {d : Dict Key (Protocol × DeviceConfig)} {k : Key} {v : Protocol × DeviceConfig}
    (hn : (d.map (fun x => x.2.1.id)).Nodup) (hf : ∀ x ∈ d, x.2.1.id ≠ v.1.id) :
    ((Dict.set d k v).map (fun x => x.2.1.id)).Nodup := by
  induction d with
  | nil => simp [Dict.set]
  | cons y d ih =>
    obtain ⟨a, b⟩ := y
    simp only [List.map_cons, List.nodup_cons] at hn
    unfold Dict.set
    by_cases hk : a = k
    · rw [if_pos hk]
      simp only [List.map_cons, List.nodup_cons]
      refine ⟨?_, hn.2⟩
      intro hm
      obtain ⟨x, hx, he⟩ := List.mem_map.mp hm
      exact hf x (List.mem_cons_of_mem _ hx) he
    · rw [if_neg hk]
      simp only [List.map_cons, List.nodup_cons]
      refine ⟨?_, ih hn.2 (fun x hx => hf x (List.mem_cons_of_mem _ hx))⟩
      intro hm
      obtain ⟨x, hx, he⟩ := List.mem_map.mp hm
      rcases mem_set hx with rfl | hx
      · exact hf (a, b) List.mem_cons_self he.symm
      · exact hn.1 (List.mem_map.mpr ⟨x, hx, he⟩)

/-- The key a set of parameters yields, if it is supported. -/
def keyOf (base : DeviceConfig) (params : ConnParams) : Option Key :=
  match getProtocol { base with connectionType := params } true, classFromFamily params.family.value params.https true with
  | some (p, t), some cls => some (p, t, cls, params.https)
  | _, _ => none

/-- One step of building. -/
theorem addCandidate_step (base : DeviceConfig) (order : List Family) (acc : Dict Key (Protocol × DeviceConfig))
    (params : ConnParams) (w : W) (hp : params ∈ paramsTried order) (hb : Built base order acc w) :
    ∃ acc' tr, addCandidate base acc params w = (.ok acc', w ++ tr) ∧ Built base order acc' (w ++ tr) ∧
      (∀ k, k ∈ acc'.keys ↔ k ∈ acc.keys ∨ keyOf base params = some k) := by
  have ext : ∀ e, (∃ c p t, e = .created (nextId w) c p t) → Built base order acc (w ++ [e]) := by
    rintro e ⟨c, p, t, rfl⟩
    refine ⟨fun x hx => ?_, hb.ids, fun x hx => ?_, fun e hm => ?_, ?_, ?_⟩
    · obtain ⟨h1, h2⟩ := hb.good x hx
      exact ⟨List.mem_append_left _ h1, h2⟩
    · rw [nextId_append]
      have := hb.fresh x hx
      show _ < nextId w + 1
      omega
    · rcases List.mem_append.mp hm with hm | hm
      · exact hb.only e hm
      · exact ⟨_, c, p, t, List.mem_singleton.mp hm⟩
    · intro i c1 p1 t1 hm
      rw [nextId_append]
      show _ < nextId w + 1
      rcases List.mem_append.mp hm with hm | hm
      · have := hb.below _ _ _ _ hm
        omega
      · cases List.mem_singleton.mp hm
        omega
    · intro i c1 p1 t1 c2 p2 t2 h1 h2
      rcases List.mem_append.mp h1 with h1 | h1 <;> rcases List.mem_append.mp h2 with h2 | h2
      · exact hb.unique _ _ _ _ _ _ _ h1 h2
      · cases List.mem_singleton.mp h2
        exact absurd (hb.below _ _ _ _ h1) (Nat.lt_irrefl _)
      · cases List.mem_singleton.mp h1
        exact absurd (hb.below _ _ _ _ h2) (Nat.lt_irrefl _)
      · cases List.mem_singleton.mp h1
        cases List.mem_singleton.mp h2
        rfl
  unfold addCandidate
  simp only [PyM.bind_apply, create_apply]
  cases hg : getProtocol { base with connectionType := params } true with
  | none =>
    refine ⟨acc, [], by simp, by simpa using hb, ?_⟩
    intro k
    simp [keyOf, hg]
  | some pt =>
    obtain ⟨p, t⟩ := pt
    simp only
    cases hc : classFromFamily params.family.value params.https true with
    | none =>
      refine ⟨acc, [.created (nextId w) { base with connectionType := params } p t], rfl, ext _ ⟨_, _, _, rfl⟩, ?_⟩
      intro k
      simp [keyOf, hg, hc]
    | some cls =>
      refine ⟨_, [.created (nextId w) { base with connectionType := params } p t], rfl, ?_, ?_⟩
      · have he := ext (.created (nextId w) { base with connectionType := params } p t) ⟨_, _, _, rfl⟩
        refine ⟨fun x hx => ?_, nodup_set hb.ids (fun x hx => Nat.ne_of_lt (hb.fresh x hx)), fun x hx => ?_, he.only, he.below,
          he.unique⟩
        · rcases mem_set hx with rfl | hx
          · exact ⟨by simp, ⟨params, hp, rfl⟩, hg, rfl, rfl, rfl, hc⟩
          · exact he.good x hx
        · rcases mem_set hx with rfl | hx
          · rw [nextId_append]; exact Nat.lt_succ_self _
          · exact he.fresh x hx
      · intro k
        simp only [keyOf, hg, hc, Option.some.injEq]
        rw [Dict.mem_keys_set]
        constructor
        · rintro (h | h)
          · exact Or.inr h.symm
          · exact Or.inl h
        · rintro (h | h)
          · exact Or.inr h
          · exact Or.inl h.symm

theorem candidates_built (base : DeviceConfig) (order : List Family) :
    ∀ (ps : List ConnParams) (acc : Dict Key (Protocol × DeviceConfig)) (w : W), (∀ x ∈ ps, x ∈ paramsTried order) →
    Built base order acc w →
    ∃ acc' tr, PyM.foldM (addCandidate base) acc ps w = (.ok acc', w ++ tr) ∧ Built base order acc' (w ++ tr) ∧
      (∀ k, k ∈ acc'.keys ↔ k ∈ acc.keys ∨ ∃ x ∈ ps, keyOf base x = some k)
  | [], acc, w, _, hb => ⟨acc, [], by simp [PyM.foldM_nil], by simpa using hb, by simp⟩
  | x :: ps, acc, w, hp, hb => by
    obtain ⟨acc1, tr1, h1, hb1, hk1⟩ := addCandidate_step base order acc x w (hp x List.mem_cons_self) hb
    obtain ⟨acc2, tr2, h2, hb2, hk2⟩ := candidates_built base order ps acc1 (w ++ tr1)
      (fun y hy => hp y (List.mem_cons_of_mem _ hy)) hb1
    refine ⟨acc2, tr1 ++ tr2, ?_, by rw [← List.append_assoc]; exact hb2, ?_⟩
    · rw [PyM.foldM_cons, PyM.bind_ok h1, h2, List.append_assoc]
    · intro k
      rw [hk2, hk1]
      simp only [List.mem_cons, exists_eq_or_imp, or_assoc]

/-! ### The login version -/

/-- Every candidate logs in with version 2. -/
def Second (acc : Dict Key (Protocol × DeviceConfig)) : Prop := ∀ x ∈ acc, x.2.2.connectionType.loginVersion = some 2

/-- The two versions of some parameters. -/
def bothVersions (x : Encryption × Family × Bool) : List ConnParams :=
  [none, some 2].map fun loginVersion => { family := x.2.1, encryption := x.1, loginVersion, https := x.2.2, httpPort := none }

theorem paramsTried_pairs (order : List Family) : paramsTried order =
    (Encryption.all.flatMap fun e => order.flatMap fun f => [true, false].map fun h => (e, f, h)).flatMap bothVersions := by
  simp only [paramsTried, List.flatMap_assoc, List.flatMap_map]
  rfl

theorem set_other {d : Dict Key (Protocol × DeviceConfig)} {k : Key} {v : Protocol × DeviceConfig} {x} (hw : Dict.WF d)
    (h : x ∈ Dict.set d k v) : x = (k, v) ∨ (x ∈ d ∧ x.1 ≠ k) := by
  rcases Classical.em (x.1 = k) with hk | hk
  · left
    have h1 := Dict.get?_of_mem (Dict.WF_set hw k v) h
    rw [hk, Dict.get?_set_self] at h1
    cases h1
    rw [← hk]
  · exact (mem_set h).imp id fun h => ⟨h, hk⟩

theorem addCandidate_apply (base : DeviceConfig) (acc : Dict Key (Protocol × DeviceConfig)) (params : ConnParams) (w : W) :
    ∃ w' p, addCandidate base acc params w = (.ok (match keyOf base params with
      | some k => acc.set k (p, { base with connectionType := params })
      | none => acc), w') := by
  unfold addCandidate
  simp only [PyM.bind_apply, create_apply, keyOf]
  cases hg : getProtocol { base with connectionType := params } true with
  | none => exact ⟨_, ⟨0, .iot, .xor⟩, rfl⟩
  | some pt =>
    simp only
    cases hc : classFromFamily params.family.value params.https true with
    | none => exact ⟨_, ⟨0, .iot, .xor⟩, rfl⟩
    | some cls => exact ⟨_, _, rfl⟩

/-- The second version takes the place of the first. -/
theorem addBoth (base : DeviceConfig) (x : Encryption × Family × Bool) (acc : Dict Key (Protocol × DeviceConfig)) (w : W)
    (hw : Dict.WF acc) (hs : Second acc) : ∃ acc' w', PyM.foldM (addCandidate base) acc (bothVersions x) w = (.ok acc', w') ∧
      Dict.WF acc' ∧ Second acc' := by
  have hkey : keyOf base ⟨x.2.1, x.1, none, x.2.2, none⟩ = keyOf base ⟨x.2.1, x.1, some 2, x.2.2, none⟩ := by
    unfold keyOf
    rw [Factory.C20_function { base with connectionType := ⟨x.2.1, x.1, none, x.2.2, none⟩ }
      { base with connectionType := ⟨x.2.1, x.1, some 2, x.2.2, none⟩ } true rfl rfl rfl]
  obtain ⟨w1, p1, h1⟩ := addCandidate_apply base acc ⟨x.2.1, x.1, none, x.2.2, none⟩ w
  obtain ⟨w2, p2, h2⟩ := addCandidate_apply base (match keyOf base ⟨x.2.1, x.1, none, x.2.2, none⟩ with
      | some k => acc.set k (p1, { base with connectionType := ⟨x.2.1, x.1, none, x.2.2, none⟩ })
      | none => acc) ⟨x.2.1, x.1, some 2, x.2.2, none⟩ w1
  refine ⟨_, w2, by
    simp only [bothVersions, List.map_cons, List.map_nil]
    rw [PyM.foldM_cons, PyM.bind_ok h1, PyM.foldM_cons, PyM.bind_ok h2, PyM.foldM_nil]; rfl, ?_⟩
  rw [hkey]
  cases hk : keyOf base ⟨x.2.1, x.1, some 2, x.2.2, none⟩ with
  | none => exact ⟨hw, hs⟩
  | some k =>
    refine ⟨Dict.WF_set (Dict.WF_set hw _ _) _ _, fun y hy => ?_⟩
    rcases set_other (Dict.WF_set hw _ _) hy with rfl | ⟨hy, hne⟩
    · rfl
    · rcases set_other hw hy with rfl | ⟨hy, _⟩
      · exact absurd rfl hne
      · exact hs y hy

theorem foldM_append {S α ι : Type} (body : α → ι → PyM S α) : ∀ (xs ys : List ι) (acc acc' : α) (s s' : S),
    PyM.foldM body acc xs s = (.ok acc', s') → PyM.foldM body acc (xs ++ ys) s = PyM.foldM body acc' ys s'
  | [], ys, acc, acc', s, s', h => by cases h; rfl
  | x :: xs, ys, acc, acc', s, s', h => by
    rw [List.cons_append, PyM.foldM_cons]
    rw [PyM.foldM_cons] at h
    rw [PyM.bind_apply] at h ⊢
    cases hb : body acc x s with
    | mk r s1 =>
      rw [hb] at h
      cases r with
      | error e => cases h
      | ok a => exact foldM_append body xs ys a acc' s1 s' h

theorem candidates_second (base : DeviceConfig) : ∀ (xs : List (Encryption × Family × Bool)) (acc : Dict Key (Protocol × DeviceConfig))
    (w : W), Dict.WF acc → Second acc → ∃ acc' w', PyM.foldM (addCandidate base) acc (xs.flatMap bothVersions) w = (.ok acc', w') ∧
      Second acc'
  | [], acc, w, _, hs => ⟨acc, w, rfl, hs⟩
  | x :: xs, acc, w, hw, hs => by
    obtain ⟨acc1, w1, h1, hw1, hs1⟩ := addBoth base x acc w hw hs
    obtain ⟨acc2, w2, h2, hs2⟩ := candidates_second base xs acc1 w1 hw1 hs1
    refine ⟨acc2, w2, ?_, hs2⟩
    rw [List.flatMap_cons, foldM_append _ _ _ _ _ _ _ h1, h2]

theorem mem_paramsTried {order : List Family} {f : Family} (hf : f ∈ order) (e : Encryption) (h : Bool) :
    (⟨f, e, none, h, none⟩ : ConnParams) ∈ paramsTried order := by
  unfold paramsTried
  simp only [List.mem_flatMap]
  refine ⟨e, by cases e <;> decide, f, hf, h, by cases h <;> decide, ?_⟩
  simp

theorem exact_class {s : String} {h : Bool} {k : DevClass} (hk : classFromFamily s h true = some k) :
    classFromFamily s h false ≠ none := by
  unfold classFromFamily at *
  cases hd : Dict.get? supportedTypes (s ++ if h then ".HTTPS" else "") with
  | some c => simp
  | none => rw [hd] at hk; simp at hk

/-- What trying everything does, for every environment. -/
theorem tryConnectAll_trace (env : Env) (base : DeviceConfig) (wanted : Bool) (order : List Family) :
    ∃ cs r tr0 tr, tryConnectAll env base wanted order [] = (r, tr0 ++ tr) ∧ (Built base order cs tr0 ∧ Second cs) ∧
      (∀ k, k ∈ Dict.keys cs ↔ ∃ x ∈ paramsTried order, keyOf base x = some k) ∧
      (∀ e ∈ tr, ∃ x ∈ cs, e = .closed x.2.1.id ∨ Uses x.2.1.id e) ∧
      (∀ id, (∃ e ∈ tr, Uses id e) → ClosedForGood id tr) ∧
      (∀ dev, r = .ok (some dev) → ∃ x ∈ cs, dev.protocol = x.2.1.id ∧ Event.updated x.2.1.id dev.cls true ∈ tr ∧
        (wanted = true → Event.attempt x.2.1.id true ∈ tr) ∧ ∀ id cls, Event.updated id cls true ∈ tr → id = x.2.1.id) ∧
      (r = .ok none → (∀ x ∈ cs, (∃ e ∈ tr, Uses x.2.1.id e) ∧ (wanted = true → Event.attempt x.2.1.id false ∈ tr)) ∧
        ∀ id cls, Event.updated id cls true ∉ tr) := by
  have hb0 : Built base order [] [] := ⟨by simp, by simp, by simp, by simp, by simp, by simp⟩
  obtain ⟨cs, tr0, h0, hb, hk⟩ := candidates_built base order (paramsTried order) [] [] (fun x hx => hx) hb0
  obtain ⟨r, tr, h1, h2, h3, h4, h5⟩ := tryEach_trace env wanted cs tr0 hb.ids
    (fun x hx => exact_class (hb.good x hx).2.2.2.2.2.2)
  have hsec : Second cs := by
    obtain ⟨cs', w', h, hs⟩ := candidates_second base _ [] [] List.nodup_nil (fun x hx => nomatch hx)
    rw [← paramsTried_pairs, h0] at h
    cases h
    exact hs
  refine ⟨cs, r, tr0, tr, ?_, ⟨hb, hsec⟩, by simpa using hk, h2, h3, h4, h5⟩
  unfold tryConnectAll candidates
  rw [PyM.bind_ok h0]
  exact h1

/-- C51: whatever happens (devices that fail, callers that cancel, callbacks that raise), every protocol
`try_connect_all` used has been closed, and was not used afterwards. -/
theorem C51_closed (env : Env) (base : DeviceConfig) (wanted : Bool) (order : List Family) (id : Nat) :
    ∀ e ∈ (tryConnectAll env base wanted order []).2, Uses id e →
      ClosedForGood id (tryConnectAll env base wanted order []).2 := by
  obtain ⟨cs, r, tr0, tr, h, ⟨hb, -⟩, -, -, h3, -, -⟩ := tryConnectAll_trace env base wanted order
  rw [h]
  intro e hm hu
  have hne : e ∈ tr := by
    rcases List.mem_append.mp hm with hm | hm
    · obtain ⟨i, c, p, t, rfl⟩ := hb.only e hm; cases hu
    · exact hm
  obtain ⟨a, b, hab, hnb⟩ := h3 id ⟨e, hne, hu⟩
  exact ⟨tr0 ++ a, b, by rw [hab]; simp, hnb⟩

/-- C51: a device it returns was updated successfully, over a protocol created for the caller's host and credentials with
one of the supported connection types; it is the only one for which that worked; and the caller was told. -/
theorem C51_returned (env : Env) (base : DeviceConfig) (wanted : Bool) (order : List Family) (dev : Device)
    (hr : (tryConnectAll env base wanted order []).1 = .ok (some dev)) :
    (∃ params p t, Event.created dev.protocol { base with connectionType := params } p t ∈
        (tryConnectAll env base wanted order []).2 ∧ params.family ∈ order ∧
        getProtocol { base with connectionType := params } true = some (p, t)) ∧
    Event.updated dev.protocol dev.cls true ∈ (tryConnectAll env base wanted order []).2 ∧
    (∀ id cls, Event.updated id cls true ∈ (tryConnectAll env base wanted order []).2 → id = dev.protocol) ∧
    (wanted = true → Event.attempt dev.protocol true ∈ (tryConnectAll env base wanted order []).2) := by
  obtain ⟨cs, r, tr0, tr, h, ⟨hb, -⟩, -, -, -, h4, -⟩ := tryConnectAll_trace env base wanted order
  rw [h] at hr ⊢
  obtain ⟨x, hx, hd, hu, hw, ho⟩ := h4 dev hr
  obtain ⟨hc, ⟨params, hp, hcfg⟩, hg, -⟩ := hb.good x hx
  refine ⟨⟨params, x.2.1.proto, x.2.1.transport, ?_, ?_, ?_⟩, ?_, ?_, ?_⟩
  · rw [hd, ← hcfg]; exact List.mem_append_left _ hc
  · unfold paramsTried at hp
    simp only [List.mem_flatMap, List.mem_map] at hp
    obtain ⟨_, _, f, hf, _, _, _, _, rfl⟩ := hp
    exact hf
  · rw [← hcfg]; exact hg
  · rw [hd]; exact List.mem_append_right _ hu
  · intro id cls hm
    rw [hd]
    rcases List.mem_append.mp hm with hm | hm
    · obtain ⟨i, c, p, t, h⟩ := hb.only _ hm; cases h
    · exact ho id cls hm
  · intro hq; rw [hd]; exact List.mem_append_right _ (hw hq)

/-- C51: it returns nothing only after trying, without success, every supported combination of family, encryption and HTTPS
of the main families, with login version 2, and reporting each.  Missing: the other login version is never tried, see
`C51_login_version`. -/
theorem C51_tries_all_partial (env : Env) (base : DeviceConfig) (wanted : Bool) (order : List Family)
    (hr : (tryConnectAll env base wanted order []).1 = .ok none) :
    (∀ f ∈ order, ∀ e https p t cls,
      getProtocol { base with connectionType := ⟨f, e, none, https, none⟩ } true = some (p, t) →
      classFromFamily f.value https true = some cls →
      ∃ id, Created id p t https (some 2) (tryConnectAll env base wanted order []).2 ∧
        (∃ ev ∈ (tryConnectAll env base wanted order []).2, Uses id ev) ∧
        (wanted = true → Event.attempt id false ∈ (tryConnectAll env base wanted order []).2)) ∧
    (∀ id cls, Event.updated id cls true ∉ (tryConnectAll env base wanted order []).2) := by
  obtain ⟨cs, r, tr0, tr, h, ⟨hb, hs⟩, hk, -, -, -, h5⟩ := tryConnectAll_trace env base wanted order
  rw [h] at hr ⊢
  obtain ⟨h6, h7⟩ := h5 hr
  constructor
  · intro f hf e https p t cls hg hc
    have hkey : (p, t, cls, https) ∈ Dict.keys cs := by
      rw [hk]
      refine ⟨_, mem_paramsTried hf e https, ?_⟩
      simp only [keyOf, hg, hc]
    obtain ⟨x, hx, hxk⟩ := List.mem_map.mp hkey
    obtain ⟨g1, -, -, g4, g5, g6, -⟩ := hb.good x hx
    rw [hxk] at g4 g5 g6
    simp only at g4 g5 g6
    obtain ⟨⟨ev, hev, hu⟩, hat⟩ := h6 x hx
    refine ⟨x.2.1.id, ⟨x.2.2, ?_, g6.symm, hs x hx⟩, ⟨ev, List.mem_append_right _ hev, hu⟩,
      fun hq => List.mem_append_right _ (hat hq)⟩
    rw [g4, g5]
    exact List.mem_append_left _ g1
  · intro id cls hm
    rcases List.mem_append.mp hm with hm | hm
    · obtain ⟨i, c, p, t, h⟩ := hb.only _ hm; cases h
    · exact h7 id cls hm

/-- C51 is false of the login version: both are written in the loop, but the second takes the place of the first, as they
share a key.  Whatever is tried is tried with version 2, so that a device that needs the other one is never found. -/
theorem C51_login_version (env : Env) (base : DeviceConfig) (wanted : Bool) (order : List Family) (id : Nat) (e : Event)
    (he : e ∈ (tryConnectAll env base wanted order []).2) (hu : Uses id e) (c : DeviceConfig) (p : Proto) (t : Transport)
    (hc : .created id c p t ∈ (tryConnectAll env base wanted order []).2) : c.connectionType.loginVersion = some 2 := by
  obtain ⟨cs, r, tr0, tr, h, ⟨hb, hs⟩, -, h2, -⟩ := tryConnectAll_trace env base wanted order
  rw [h] at he hc
  have hid : ∀ x : Key × Protocol × DeviceConfig, (e = .closed x.2.1.id ∨ Uses x.2.1.id e) → id = x.2.1.id := by
    intro x hx
    rcases hx with rfl | hx
    · cases hu
    · cases hu <;> cases hx <;> rfl
  obtain ⟨x, hx, hxe⟩ : ∃ x ∈ cs, e = .closed x.2.1.id ∨ Uses x.2.1.id e := by
    rcases List.mem_append.mp he with he | he
    · obtain ⟨i, c, p, t, rfl⟩ := hb.only e he
      cases hu
    · exact h2 e he
  have hc0 : .created id c p t ∈ tr0 := by
    rcases List.mem_append.mp hc with hc | hc
    · exact hc
    · obtain ⟨y, _, hy | hy⟩ := h2 _ hc
      · cases hy
      · cases hy
  have := hb.unique id c p t _ _ _ hc0 (hid x hxe ▸ (hb.good x hx).1)
  rw [this]
  exact hs x hx

/-! ## Examples -/

/-- A network where everything works, and a legacy plug answers. -/
def goodEnv : Env where
  answer := fun _ => .ok (.obj [("system", .obj [("get_sysinfo", .obj [("type", .str "IOT.SMARTPLUGSWITCH")])])])
  fill := fun _ _ => .ok ()
  update := fun _ => .ok ()
  close := fun _ => .ok ()
  callback := fun _ => .ok ()
  lower := fun _ => "iot.smartplugswitch"

example : connect goodEnv (some "192.0.2.1") none [] =
    (.ok ⟨.iot .plug, 0⟩, [.created 0 (ofHost "192.0.2.1") .iot .xor, .asked 0 true, .updated 0 (.iot .plug) true]) := by
  decide +kernel

/-- The caller cancels during the update. -/
example : connect { goodEnv with update := fun _ => .error .base } (some "192.0.2.1") none [] =
    (.error .base, [.created 0 (ofHost "192.0.2.1") .iot .xor, .asked 0 true, .updated 0 (.iot .plug) false, .closed 0]) := by
  decide +kernel

/-- Nothing works: seven candidates are tried. -/
example : (tryConnectAll { goodEnv with update := fun _ => .error .timeout } (ofHost "h") true mainFamilies []).1 = .ok none ∧
    ((tryConnectAll { goodEnv with update := fun _ => .error .timeout } (ofHost "h") true mainFamilies []).2.filter
      (fun e => match e with | .attempt _ _ => true | _ => false)).length = 7 := by
  decide +kernel

/-- Nothing works: what was tried with AES and without HTTPS was tried with version 2. -/
example := C51_login_version { goodEnv with update := fun _ => .error .timeout } (ofHost "h") true mainFamilies 13 (.attempt 13 false)
  (by decide +kernel) (.attempt false) { ofHost "h" with connectionType := ⟨.smartTapoPlug, .aes, some 2, false, none⟩ } .smart .aes
  (by decide +kernel)

end Kasa.Connect
