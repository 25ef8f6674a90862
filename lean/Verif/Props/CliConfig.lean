import Verif.Model.CliConfig
import Verif.Lemmas.Cli
import Verif.Props.Connect
/-!
# C51: the options printed by `discover config`
-/

namespace Kasa.Cli
open Config Factory

theorem family_ofJson (f : Family) : Family.ofJson (.str f.value) = .ok f := by cases f <;> decide

theorem encryption_ofJson (e : Encryption) : Encryption.ofJson (.str e.value) = .ok e := by cases e <;> decide

theorem family_ne (f : Family) : f.value ≠ "" := by cases f <;> decide

theorem encryption_ne (e : Encryption) : e.value ≠ "" := by cases e <;> decide

/-- The printed options are read back as the parameters they were printed for. -/
theorem params_printed (o : Options) (p : ConnParams) (ht : o.type = none) (hl : p.loginVersion = some o.loginVersion) (hh : p.httpPort = none) :
    params (withPrinted o (printed p)) = .ok p := by
  have hg : given (some p.encryption.value) = true := (given_iff _).2 ⟨_, rfl, encryption_ne _⟩
  unfold params withPrinted printed
  simp only [ht, hg, if_true, Option.getD_some, reduceCtorEq, decide_false, Bool.false_eq_true, if_false, family_ofJson, encryption_ofJson,
    Bool.false_or]
  cases p
  simp only at hl hh
  subst hl
  subst hh
  rfl

/-- The log starts with this event. -/
def StartsWith (e : Event) (w : World) : Prop := w.log.head? = some e

theorem StartsWith.add {e : Event} {w : World} (h : StartsWith e w) (x : Event) : StartsWith e { w with log := w.log ++ [x] } := by
  unfold StartsWith at h ⊢
  cases hl : w.log with
  | nil => rw [hl] at h; cases h
  | cons a l => rw [hl] at h; exact h

theorem act_starts {α : Type} (e x : Event) (f : Nat → Except Stop α) :
    Holds (StartsWith e) (act x f) (fun _ => StartsWith e) (fun _ => StartsWith e) :=
  .act (fun _ _ hw _ => hw.add x) fun _ _ hw _ => hw.add x

theorem doIf_starts (e : Event) (c : Bool) {m : M Unit} (hm : Holds (StartsWith e) m (fun _ => StartsWith e) (fun _ => StartsWith e)) :
    Holds (StartsWith e) (doIf c m) (fun _ => StartsWith e) (fun _ => StartsWith e) := by
  unfold doIf
  exact .ite (fun _ => hm) fun _ => .pure' _ fun _ h => h

/-- A run with a host, without other ways of choosing the device, and with a family and an encryption. -/
structure Direct (o : Options) (host : String) : Prop where
  address : o.host = some host
  target : o.target = "255.255.255.255"
  alias : o.alias = none
  type : o.type = none
  login : given o.password = given o.username
  command : o.subcommand ≠ some "discover"

theorem run_connects (env : Surroundings) (o : Options) (host : String) (hd : Direct o host) (p : ConnParams) (hf : o.family ≠ "")
    (he : given o.encryptType = true) (hp : params o = .ok p) : (run env o).2.head? = some (.connect (connectedHandle o p)) := by
  have hchecks : checks env o ⟨[], none⟩ = (.ok true, ⟨[], none⟩) := by
    unfold checks
    rw [if_neg (fun h => h.1 hd.target), if_neg hd.command, if_neg (by rw [hd.alias]; simp), if_neg (fun h => h hd.login),
      if_neg (by rw [hd.address]; simp)]
    rfl
  have hchoose : Holds (fun w => w = ⟨[], none⟩) (choose env o) (fun _ => StartsWith (.connect (connectedHandle o p)))
      (fun _ => StartsWith (.connect (connectedHandle o p))) := by
    unfold choose
    rw [if_neg (by rw [hd.type]; simp), if_pos (.inr ⟨hf, he⟩), hp]
    refine .bind (Q := fun _ => StartsWith (.connect (connectedHandle o p))) (.act ?_ ?_) fun _ => .pure' _ fun _ h => h
    · rintro w x rfl -
      rfl
    · rintro w x rfl -
      rfl
  have hopened : ∀ c, Holds (StartsWith (.connect (connectedHandle o p))) (opened env o c) (fun _ => StartsWith (.connect (connectedHandle o p)))
      (fun _ => StartsWith (.connect (connectedHandle o p))) := by
    intro c
    cases c with
    | nothing => exact .pure' _ fun _ h => h
    | device h u d =>
      unfold opened
      refine .bind (doIf_starts _ _ (act_starts _ _ _)) fun _ => .bind (Q := fun _ => StartsWith (.connect (connectedHandle o p))) ?_ fun _ =>
        .bind (doIf_starts _ _ (act_starts _ _ _)) fun _ => .pure' _ fun _ h => h
      intro w hw
      refine ⟨?_, ?_⟩
      · intro x w' hx
        cases hx
        exact hw
      · intro x w' hx
        cases hx
  have hcli : Holds (fun w => w = ⟨[], none⟩) (cli env o) (fun _ => StartsWith (.connect (connectedHandle o p)))
      (fun _ => StartsWith (.connect (connectedHandle o p))) := by
    unfold cli
    refine .bind (Q := fun b w => b = true ∧ w = ⟨[], none⟩) ?_ ?_
    · rintro w rfl
      rw [hchecks]
      refine ⟨?_, ?_⟩
      · intro x w' hx
        cases hx
        exact ⟨rfl, rfl⟩
      · intro x w' hx
        cases hx
    · intro b
      cases b with
      | false =>
        rintro w ⟨h, -⟩
        cases h
      | true =>
        rw [if_pos rfl]
        exact .bind (hchoose.weaken fun w h => h.2) hopened
  have hgroup : Holds (fun w => w = ⟨[], none⟩) (group env o) (fun _ => StartsWith (.connect (connectedHandle o p)))
      (fun _ => StartsWith (.connect (connectedHandle o p))) := by
    unfold group
    exact .bind hcli fun _ => .bind (doIf_starts _ _ (act_starts _ _ _)) fun _ => doIf_starts _ _ (act_starts _ _ _)
  have key : StartsWith (.connect (connectedHandle o p)) (group env o ⟨[], none⟩).2 := by
    have h := hgroup ⟨[], none⟩ rfl
    cases hg : group env o ⟨[], none⟩ with
    | mk r w =>
      cases r with
      | ok x => exact h.1 x w hg
      | error e => exact h.2 e w hg
  unfold run
  cases hg : group env o ⟨[], none⟩ with
  | mk r w =>
    rw [hg] at key
    simp only
    cases w.held with
    | none => exact key
    | some h =>
      simp only
      cases env.disconnect w.log.length with
      | ok _ => exact key.add (.disconnect h)
      | error e => exact key.add (.disconnect h)

theorem getProtocol_lax (c : DeviceConfig) (x : Proto × Transport) (h : getProtocol c true = some x) : getProtocol c false = some x := by
  unfold getProtocol at h ⊢
  simp only at h ⊢
  split
  · rename_i h1
    rw [if_pos h1] at h
    split at h
    · cases h
    · simpa using h
  · rename_i h1
    rw [if_neg h1] at h
    split
    · rename_i h2
      rw [if_pos h2] at h
      split at h
      · cases h
      · simpa using h
    · rename_i h2
      rw [if_neg h2] at h
      exact h

theorem tryEach_class (env : Connect.Env) (wanted : Bool) (dev : Connect.Device) : ∀ (cs : List (Connect.Key × Connect.Protocol × DeviceConfig))
    (w w' : Connect.W), Connect.tryEach env wanted cs w = (.ok (some dev), w') →
    ∃ x ∈ cs, dev.protocol = x.2.1.id ∧ ((x.2.1.proto = .iot ∧ x.2.1.transport = .xor) ∨
      classFromFamily x.2.2.connectionType.family.value x.2.2.connectionType.https false = some dev.cls)
  | [], w, w', h => by cases h
  | (k, p, c) :: rest, w, w', h => by
    unfold Connect.tryEach at h
    obtain ⟨r, w1, h1, h2⟩ := PyM.bind_eq_ok h
    cases r with
    | none =>
      obtain ⟨x, hx, hh⟩ := tryEach_class env wanted dev rest w1 w' h2
      exact ⟨x, List.mem_cons_of_mem _ hx, hh⟩
    | some d =>
      cases h2
      refine ⟨_, List.mem_cons_self, ?_⟩
      have h3 : ∃ w2, Connect.tryOne env wanted p c w = (.ok (some dev), w2) := by
        unfold PyM.tryFinally at h1
        cases ht : Connect.tryOne env wanted p c w with
        | mk r w2 =>
          rw [ht] at h1
          simp only at h1
          cases hcl : Connect.close env p.id w2 with
          | mk r2 w3 =>
            rw [hcl] at h1
            cases r2 with
            | ok _ => exact ⟨w2, by rw [(Prod.mk.inj h1).1]⟩
            | error e => cases h1
      obtain ⟨w2, h3⟩ := h3
      have h4 : ∃ w3, Connect.connectWith env c p w = (.ok dev, w3) := by
        unfold Connect.tryOne at h3
        cases hc : Connect.connectWith env c p w with
        | mk r w3 =>
          rw [hc] at h3
          cases r with
          | ok d =>
            obtain ⟨_, _, _, h5⟩ := PyM.bind_eq_ok h3
            cases h5
            exact ⟨w3, rfl⟩
          | error e =>
            simp only at h3
            split at h3
            · obtain ⟨_, _, _, h5⟩ := PyM.bind_eq_ok h3
              cases h5
            · cases h3
      obtain ⟨w3, h4⟩ := h4
      unfold Connect.connectWith at h4
      split at h4
      · rename_i hx
        unfold Connect.connectLegacy at h4
        obtain ⟨_, _, _, h4⟩ := PyM.bind_eq_ok h4
        obtain ⟨_, _, _, h4⟩ := PyM.bind_eq_ok h4
        obtain ⟨_, _, _, h4⟩ := PyM.bind_eq_ok h4
        obtain ⟨_, _, _, h4⟩ := PyM.bind_eq_ok h4
        obtain ⟨_, _, _, h4⟩ := PyM.bind_eq_ok h4
        cases h4
        exact ⟨rfl, .inl hx⟩
      · cases hcls : classFromFamily c.connectionType.family.value c.connectionType.https false with
        | none =>
          rw [hcls] at h4
          cases h4
        | some cls =>
          rw [hcls] at h4
          obtain ⟨_, _, _, h4⟩ := PyM.bind_eq_ok h4
          cases h4
          exact ⟨rfl, .inr rfl⟩

/-- **C51, the printed options.** When `discover config` managed to connect, a run of the tool with the same host and the options that it
printed starts by connecting with exactly the parameters that worked, over the same protocol and transport, with the same class of device
(for the legacy transport the class follows from the device's answer instead). -/
theorem C51_options (env : Connect.Env) (base : DeviceConfig) (wanted : Bool) (order : List Family) (dev : Connect.Device)
    (hr : (Connect.tryConnectAll env base wanted order []).1 = .ok (some dev)) :
    ∃ params p t, Connect.Event.created dev.protocol { base with connectionType := params } p t ∈
        (Connect.tryConnectAll env base wanted order []).2 ∧
      getProtocol { base with connectionType := params } false = some (p, t) ∧
      ((p = .iot ∧ t = .xor) ∨ classFromFamily params.family.value params.https false = some dev.cls) ∧
      ∀ (surroundings : Surroundings) (o : Options) (host : String), Direct o host → o.loginVersion = 2 →
        (run surroundings (withPrinted o (printed params))).2.head? =
          some (.connect (connectedHandle (withPrinted o (printed params)) params)) := by
  have hb0 : Connect.Built base order [] [] := ⟨by simp, by simp, by simp, by simp, by simp, by simp⟩
  obtain ⟨cs, tr0, h0, hb, -⟩ := Connect.candidates_built base order (Connect.paramsTried order) [] [] (fun x hx => hx) hb0
  have hsec : Connect.Second cs := by
    obtain ⟨cs', w', h, hs⟩ := Connect.candidates_second base _ [] [] List.nodup_nil (fun x hx => nomatch hx)
    rw [← Connect.paramsTried_pairs, h0] at h
    cases h
    exact hs
  obtain ⟨⟨_, _, _, hcr, -⟩, -⟩ := Connect.C51_returned env base wanted order dev hr
  have hall : Connect.tryConnectAll env base wanted order [] = Connect.tryEach env wanted cs tr0 := by
    unfold Connect.tryConnectAll Connect.candidates
    rw [PyM.bind_ok h0]
    rfl
  rw [hall] at hr
  obtain ⟨x, hx, hdev, hcls⟩ := tryEach_class env wanted dev cs tr0 (Connect.tryEach env wanted cs tr0).2 (Prod.ext hr rfl)
  obtain ⟨hc, ⟨params, hp, hcfg⟩, hg, -⟩ := hb.good x hx
  have hlog : ∀ e ∈ tr0, e ∈ (Connect.tryConnectAll env base wanted order []).2 := by
    obtain ⟨r, tr, h1, -⟩ := Connect.tryEach_trace env wanted cs tr0 hb.ids (fun x hx => Connect.exact_class (hb.good x hx).2.2.2.2.2.2)
    intro e he
    rw [hall, h1]
    exact List.mem_append_left _ he
  have hlv := hsec x hx
  have hport : params.httpPort = none := by
    unfold Connect.paramsTried at hp
    simp only [List.mem_flatMap, List.mem_map] at hp
    obtain ⟨_, _, _, _, _, _, _, _, rfl⟩ := hp
    rfl
  rw [hcfg] at hc hg hcls hlv
  refine ⟨params, x.2.1.proto, x.2.1.transport, hdev ▸ hlog _ hc, getProtocol_lax _ _ hg, hcls, ?_⟩
  intro surroundings o host hd hl
  refine run_connects surroundings (withPrinted o (printed params)) host ⟨hd.address, hd.target, hd.alias, hd.type, hd.login, hd.command⟩ params (family_ne _) ?_ ?_
  · exact (given_iff _).2 ⟨_, rfl, encryption_ne _⟩
  · exact params_printed o params hd.type (by rw [hl]; exact hlv) hport

/-! ## The hypotheses can be met -/

/-- A run against a given host. -/
def Example.direct : Options := { host := some "192.0.2.1", subcommand := some "on" }

example : Direct Example.direct "192.0.2.1" := ⟨rfl, rfl, rfl, rfl, rfl, by decide⟩

/-- In a network where everything works, the first candidate is found. -/
example : (match (Connect.tryConnectAll Connect.goodEnv (ofHost "h") true Connect.mainFamilies []).1 with
  | .ok (some dev) => decide (dev.cls = .smart)
  | _ => false) = true := by decide +kernel

end Kasa.Cli
