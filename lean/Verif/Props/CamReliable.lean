import Verif.Props.ChildNetwork
import Verif.Lemmas.CamSound
import Verif.Lemmas.Heals
/-!
# C87: the camera transport recovers when nothing goes wrong any more
-/

namespace Kasa.CamEndToEnd
open PyM SslAes SslAesSpec
open EndToEnd (Program Once Sent Message ProperQuery Speaks Faithful Heals proper_wire message_wire)

section
variable {α : Type} (c : BlockCipher) (h : Hashes) (d : Device) (lib lib' : JsonText.Lib) (p : Program α)
variable (x : Chance) (creds kept : Option (String × String)) (defaults : String × String)

theorem history_ready {n : Nat} (hc : x.CalmFrom n) (ho : Owned h d (config lib creds kept defaults)) (hp : ∀ j a, JsonText.Proper (p.run j a).1)
    (hsucc : d.secure = false → Successful p) (ops : List Op) (s : St (World α))
    (hs : Ready d (config lib creds kept defaults) n s.world.state s) (hops : ∀ j, .send j ∈ ops → JsonText.Proper j) :
    let cfg := config lib creds kept defaults
    ∀ o ∈ (history c h (network c h d cfg lib' p x) cfg lib ops s).1, ∃ v, o.2 = .ok v := by
  intro cfg
  induction ops generalizing s with
  | nil => exact fun o ho => nomatch ho
  | cons op ops ih =>
    cases op with
    | reset =>
      exact ih _ ⟨hs.time, rfl, hs.named, hs.less, fun he => nomatch he⟩ fun j hj => hops j (.tail _ hj)
    | send j =>
      obtain ⟨s', h1, h2⟩ := ready_send c h d lib lib' p x creds kept defaults s.world.state hc ho hp hsucc j (hops j (.head _)) s hs
      have h1 : SslAes.send c h (network c h d cfg lib' p x) cfg (utf8 (JsonText.dumps lib j)) s = (.ok (p.run j s.world.state).1, s') := h1
      intro o ho'
      simp only [history, h1] at ho'
      rcases List.mem_cons.mp ho' with rfl | ho'
      · exact ⟨_, rfl⟩
      · exact ih s' (by rw [h2.state]; exact h2) (fun j hj => hops j (.tail _ hj)) o ho'

/-- **C87, without failures.** When nothing goes wrong and the device was given the user's password, all requests on a new camera
transport are answered, with resets anywhere in between, with the secure login and with the less secure one. -/
theorem C87_cam_reliable (w : World α) (hc : x.CalmFrom w.count) (ho : Owned h d (config lib creds kept defaults))
    (hp : ∀ j a, JsonText.Proper (p.run j a).1) (hsucc : d.secure = false → Successful p)
    (ops : List Op) (hops : ∀ j, .send j ∈ ops → JsonText.Proper j) :
    let cfg := config lib creds kept defaults
    ∀ o ∈ (history c h (network c h d cfg lib' p x) cfg lib ops (start cfg w)).1, ∃ v, o.2 = .ok v :=
  history_ready c h d lib lib' p x creds kept defaults hc ho hp hsucc ops _
    ((start_sound _ _ w).ready (Nat.le_refl _) rfl) hops

/-- What every history keeps. -/
def Kept (d : Device) (cfg : Config) (s : St (World α)) : Prop := Good s ∧ Sound d cfg s

theorem send_kept (hx : x.Fair) (hp : ∀ j a, JsonText.Proper (p.run j a).1) (j : Json) (hj : JsonText.Proper j) (s : St (World α))
    (hk : Kept d (config lib creds kept defaults) s) :
    let cfg := config lib creds kept defaults
    ∃ res s', SslAes.send c h (network c h d cfg lib' p x) cfg (utf8 (JsonText.dumps lib j)) s = (res, s') ∧ Kept d cfg s' ∧
      ((∃ e, res = .error e ∧ s'.world.state = s.world.state) ∨ (∃ e, res = .error e ∧ s'.world.state = (p.run j s.world.state).2) ∨
        (res = .ok (p.run j s.world.state).1 ∧ s'.world.state = (p.run j s.world.state).2)) := by
  intro cfg
  obtain ⟨res, s', h1, h2, h3⟩ := send_step c h d lib lib' p x creds kept defaults hx hp j hj s hk.1
  have h1 : SslAes.send c h (network c h d cfg lib' p x) cfg (utf8 (JsonText.dumps lib j)) s = (res, s') := h1
  refine ⟨res, s', h1, ⟨h2, ?_⟩, h3⟩
  have := send_sound c h d lib' p x cfg hx (utf8 (JsonText.dumps lib j)) s hk.2
  rw [h1] at this
  cases res with
  | ok v => exact this
  | error e => exact this

theorem history_kept (hx : x.Fair) (hp : ∀ j a, JsonText.Proper (p.run j a).1) (ops : List Op) (s : St (World α))
    (hk : Kept d (config lib creds kept defaults) s) (hops : ∀ j, .send j ∈ ops → JsonText.Proper j) :
    let cfg := config lib creds kept defaults
    Kept d cfg (history c h (network c h d cfg lib' p x) cfg lib ops s).2 := by
  intro cfg
  induction ops generalizing s with
  | nil => exact hk
  | cons op ops ih =>
    cases op with
    | reset => exact ih _ ⟨good_reset s, reset_sound hk.2⟩ fun j hj => hops j (.tail _ hj)
    | send j =>
      obtain ⟨res, s', h1, h2, -⟩ := send_kept c h d lib lib' p x creds kept defaults hx hp j (hops j (.head _)) s hk
      have h1 : SslAes.send c h (network c h d cfg lib' p x) cfg (utf8 (JsonText.dumps lib j)) s = (res, s') := h1
      simp only [history, h1]
      exact ih s' h2 fun j hj => hops j (.tail _ hj)

/-- **C87, recovery.** After any history, with whatever failures, once nothing goes wrong any more: a request is answered with the
device's own answer, or refused without being carried out, and reported as not authenticated or to be tried again; after a reset, and
after having been refused as not authenticated, all further requests are answered. -/
theorem C87_recovers (hx : x.Fair) (w : World α) (before : List Op) (hbefore : ∀ j, .send j ∈ before → JsonText.Proper j)
    (ho : Owned h d (config lib creds kept defaults)) (hp : ∀ j a, JsonText.Proper (p.run j a).1) (hsucc : d.secure = false → Successful p)
    (j : Json) (hj : JsonText.Proper j) (after : List Op) (hafter : ∀ j, .send j ∈ after → JsonText.Proper j) :
    let cfg := config lib creds kept defaults
    let net := network c h d cfg lib' p x
    let s := (history c h net cfg lib before (start cfg w)).2
    let first := SslAes.send c h net cfg (utf8 (JsonText.dumps lib j)) s
    x.CalmFrom s.world.count →
    (first.1 = .ok (p.run j s.world.state).1 ∧ first.2.world.state = (p.run j s.world.state).2 ∨
        ((∃ k, first.1 = .error (.auth k)) ∨ ∃ k, first.1 = .error (.retryable k)) ∧ first.2.world.state = s.world.state) ∧
      (∀ o ∈ (history c h net cfg lib (.reset :: after) first.2).1, ∃ v, o.2 = .ok v) ∧
      ((∃ k, first.1 = .error (.auth k)) → ∀ o ∈ (history c h net cfg lib after first.2).1, ∃ v, o.2 = .ok v) := by
  intro cfg net s first hc
  have hk : Kept d cfg s := history_kept c h d lib lib' p x creds kept defaults hx hp before _ ⟨good_start _ w, start_sound _ _ w⟩ hbefore
  obtain ⟨res, s', h1, h2, h3⟩ := late_send c h d lib lib' p x creds kept defaults hc ho hp hsucc j hj s hk.1 hk.2 (Nat.le_refl _)
  have hk' : Kept d cfg s' := by
    obtain ⟨res', s'', g1, g2, -⟩ := send_kept c h d lib lib' p x creds kept defaults hx hp j hj s hk
    rw [h1] at g1
    cases g1
    exact g2
  have h1 : first = (res, s') := h1
  rw [h1]
  refine ⟨?_, ?_, ?_⟩
  · rcases h3 with h4 | ⟨e, rfl, he, h4, -⟩
    · exact .inl h4
    · refine .inr ⟨?_, h4⟩
      rcases he with ⟨k, rfl⟩ | ⟨k, rfl⟩
      · exact .inr ⟨k, rfl⟩
      · exact .inl ⟨k, rfl⟩
  · exact history_ready c h d lib lib' p x creds kept defaults hc ho hp hsucc after (reset s').2
      ((reset_sound hk'.2).ready h2 rfl) hafter
  · rintro ⟨k, he⟩
    rcases h3 with ⟨h4, -⟩ | ⟨e, h4, -, -, h5⟩
    · rw [h4] at he; cases he
    · rw [h4] at he
      cases he
      exact history_ready c h d lib lib' p x creds kept defaults hc ho hp hsucc after s' (hk'.2.ready h2 (h5 ⟨k, rfl⟩)) hafter

/-! ## Queries -/

variable (uuid : String) (time : Nat → Int)

theorem faithful_kept (hx : x.Fair) (hp : ∀ j a, JsonText.Proper (p.run j a).1) :
    let cfg := config lib creds kept defaults
    Faithful (camTransport c h (network c h d cfg lib' p x) cfg lib uuid time) p uuid (Kept d cfg) fun s => s.world.state := by
  intro cfg
  constructor
  · intro w hw s hg
    obtain ⟨res, s', h1, h2, h3⟩ := send_kept c h d lib lib' p x creds kept defaults hx hp _ (proper_wire uuid (time s.world.count) w hw) s hg
    exact ⟨_, res, s', message_wire uuid _ w, h1, h2, h3⟩
  · intro s hk
    exact ⟨⟨good_reset s, reset_sound hk.2⟩, rfl⟩

theorem heals {n : Nat} (hc : x.CalmFrom n) (hx : x.Fair) (ho : Owned h d (config lib creds kept defaults))
    (hp : ∀ j a, JsonText.Proper (p.run j a).1) (hsucc : d.secure = false → Successful p) :
    let cfg := config lib creds kept defaults
    Heals (camTransport c h (network c h d cfg lib' p x) cfg lib uuid time) p uuid (fun e => ∃ k, e = .auth k) (fun s => Kept d cfg s ∧ n ≤ s.world.count)
      (fun s => Kept d cfg s ∧ n ≤ s.world.count)
      (fun s => Ready d cfg n s.world.state s) fun s => s.world.state := by
  intro cfg
  refine ⟨?_, ?_, ?_, fun e ⟨k, he⟩ => he ▸ trivial⟩
  · rintro w hw s ⟨hk, hn⟩
    have hj := proper_wire uuid (time s.world.count) w hw
    obtain ⟨res, s', h1, h2, h3⟩ := late_send c h d lib lib' p x creds kept defaults hc ho hp hsucc _ hj s hk.1 hk.2 hn
    obtain ⟨res', s'', g1, g2, -⟩ := send_kept c h d lib lib' p x creds kept defaults hx hp _ hj s hk
    rw [h1] at g1
    cases g1
    refine ⟨_, res, s', message_wire uuid (time s.world.count) w, h1, ⟨g2, h2⟩, ?_⟩
    rcases h3 with h4 | ⟨e, h4, he, h5, -⟩
    · exact .inl h4
    · exact .inr ⟨e, h4, he, h5⟩
  · intro w hw s hs
    obtain ⟨s', h1, h2⟩ := ready_send c h d lib lib' p x creds kept defaults s.world.state hc ho hp hsucc _
      (proper_wire uuid (time s.world.count) w hw) s hs
    exact ⟨_, s', message_wire uuid _ w, h1, h2.state⟩
  · rintro s ⟨hk, hn⟩
    exact ⟨(reset s).2, rfl, (reset_sound hk.2).ready hn rfl, rfl⟩

/-- **C87, setters after failures.** After any queries, with whatever failures, once nothing goes wrong any more: a query that sets
something on a camera, with at least one retry, returns and has set it; or it raises that it is not authenticated, with nothing changed,
and then the same query, made again, returns and has set it. -/
theorem C87_setter_recovers (hx : x.Fair) (ho : Owned h d (config lib creds kept defaults)) (hp : ∀ j a, JsonText.Proper (p.run j a).1)
    (hsucc : d.secure = false → Successful p) (m : String) (hm : Plain m) (q : Json)
    (hq : JsonText.Proper q) {f : α → α} {v : Json} (hset : Sets p uuid (SmartSpec.requestFor m q) f v) (before : List (Smart.Query × Int))
    (hbefore : ∀ q ∈ before, ProperQuery q.1) (rc : Nat) (hrc : 1 ≤ rc) (n : Nat) (w : World α) :
    let cfg := config lib creds kept defaults
    let t := camTransport c h (network c h d cfg lib' p x) cfg lib uuid time
    let s := queries t before (fresh cfg n w)
    let out := SmartCam.query t (.dict [(m, q)]) rc s
    x.CalmFrom s.world.world.count →
    (out.1 = .ok [(m, .value v)] ∧ out.2.world.world.state = f s.world.world.state) ∨
      ((∃ k, out.1 = .error (.auth k)) ∧ out.2.world.world.state = s.world.world.state ∧ ∀ rc' : Nat,
        let again := SmartCam.query t (.dict [(m, q)]) rc' out.2
        again.1 = .ok [(m, .value v)] ∧ again.2.world.world.state = f s.world.world.state) := by
  intro cfg t s out hc
  have hk : Kept d cfg s.world :=
    (queries_explains (faithful_kept c h d lib lib' p x creds kept defaults uuid time hx hp) before (fresh cfg n w) hbefore
      ⟨good_start _ w, start_sound _ _ w⟩).1
  obtain ⟨rc, rfl⟩ : ∃ r, rc = r + 1 := ⟨rc - 1, by omega⟩
  exact (setter_heals (heals c h d lib lib' p x creds kept defaults uuid time hc hx ho hp hsucc) m hm q hq hset rc s
    ⟨hk, Nat.le_refl _⟩).imp_right fun ⟨⟨_, ⟨k, hk⟩, h⟩, h'⟩ => ⟨⟨k, hk ▸ h⟩, h'⟩

/-- **C87, setters without failures.** When nothing goes wrong from the start, a query that sets something, after whatever other
queries, returns and has set it. -/
theorem C87_setter_works (w : World α) (hc : x.CalmFrom w.count) (ho : Owned h d (config lib creds kept defaults))
    (hp : ∀ j a, JsonText.Proper (p.run j a).1) (hsucc : d.secure = false → Successful p) (m : String) (hm : Plain m) (q : Json)
    (hq : JsonText.Proper q) {f : α → α} {v : Json} (hset : Sets p uuid (SmartSpec.requestFor m q) f v) (before : List (Smart.Query × Int))
    (hbefore : ∀ q ∈ before, ProperQuery q.1) (rc n : Nat) :
    let cfg := config lib creds kept defaults
    let t := camTransport c h (network c h d cfg lib' p x) cfg lib uuid time
    let s := queries t before (fresh cfg n w)
    let out := SmartCam.query t (.dict [(m, q)]) rc s
    out.1 = .ok [(m, .value v)] ∧ out.2.world.world.state = f s.world.world.state := by
  intro cfg t s out
  have F : Faithful t p uuid (fun s => Ready d cfg w.count s.world.state s) fun s => s.world.state := by
    constructor
    · intro wr hw s hs
      obtain ⟨s', h1, h2⟩ := ready_send c h d lib lib' p x creds kept defaults s.world.state hc ho hp hsucc _
        (proper_wire uuid (time s.world.count) wr hw) s hs
      exact ⟨_, _, s', message_wire uuid _ wr, h1, by rw [h2.state]; exact h2, .inr (.inr ⟨rfl, h2.state⟩)⟩
    · intro s hs
      exact ⟨⟨hs.time, rfl, hs.named, hs.less, fun he => nomatch he⟩, rfl⟩
  have hs : Ready d cfg w.count s.world.world.state s.world :=
    (queries_explains F before (fresh cfg n w) hbefore ((start_sound _ _ w).ready (Nat.le_refl _) rfl)).1
  obtain ⟨wr, hwr, -, hgood⟩ := one_answered (t := t) m hm q hset s
  obtain ⟨s', h1, h2⟩ := ready_send c h d lib lib' p x creds kept defaults s.world.world.state hc ho hp hsucc _
    (proper_wire uuid (time s.world.world.count) wr (wire_all hq hwr)) s.world hs
  have h3 := hgood _ _ _ (message_wire uuid _ wr) h1
  have hout : out = _ := Smart.retried_ok t rc h3
  rw [hout]
  refine ⟨rfl, h2.state.trans ?_⟩
  rcases hwr with rfl | rfl
  · exact hset.state _ _ (.inl (message_wire uuid _ _))
  · exact hset.state _ _ (.inr (message_wire uuid _ _))

end

/-! ## Examples -/

open EndToEnd (counter counter_proper)

/-- Answers are lost and the device restarts in the beginning only. -/
def roughChance : Chance := { sampleChance with plainly := fun n => n = 3 }

theorem roughChance_fair : roughChance.Fair := ⟨sampleChance_fair.fate, sampleChance_fair.refusal, sampleChance_fair.denial⟩

theorem roughChance_calm {n : Nat} (hn : 7 ≤ n) : roughChance.CalmFrom n := by
  refine ⟨?_, ?_, ?_, ?_, ?_, ?_⟩
  · intro k hk
    show (if k = 4 then _ else _) = _
    rw [if_neg (by omega)]
  · intro k hk
    show decide (k = 6) = false
    exact decide_eq_false (by omega)
  · intro k hk
    show decide (k = 3) = false
    exact decide_eq_false (by omega)
  · intro k hk
    show (Json.num k).truthy = true
    unfold Json.truthy
    simp only [bne_iff_ne, ne_eq]
    omega
  · intro k _
    exact ⟨_, rfl, .inl ⟨-40210, rfl, by decide, by decide⟩⟩
  · intro k _
    exact ⟨_, rfl, -40401, rfl, by decide⟩

theorem sampleDevice_owned (secure : Bool) : Owned Crypto.toyHashes (sampleDevice secure) sampleConfig := by
  refine ⟨by decide, (fun u h => nomatch h), .inl ⟨"admin", rfl, by decide, rfl⟩, ?_, ?_⟩
  · intro hs
    cases hs
    rfl
  · intro hs
    cases hs
    exact .inl rfl

theorem counter_successful : Successful counter := fun j a => rfl

theorem keeping_successful : Successful keeping := by
  intro j a
  unfold keeping
  simp only
  split <;> rfl

example (secure : Bool) := C87_cam_reliable Crypto.toyCipher Crypto.toyHashes (sampleDevice secure) .python .orjson counter roughChance
  (some ("admin", "pw")) none ("admin", "default") ⟨none, none, none, 0, 7⟩ (roughChance_calm (Nat.le_refl _)) (sampleDevice_owned secure)
  counter_proper (fun _ => counter_successful) sampleOps sampleOps_proper

/-- Three requests, the second of which is not answered; by then the restart is over, and what is sent next works. -/
abbrev roughOps : List Op := [.send (.str "a"), .send (.str "b"), .send (.str "c"), .reset, .send (.str "d")]

example (secure : Bool) (j : Json) (hj : JsonText.Proper j) :=
  C87_recovers Crypto.toyCipher Crypto.toyHashes (sampleDevice secure) .python .orjson counter roughChance
    (some ("admin", "pw")) none ("admin", "default") roughChance_fair sampleWorld roughOps
    (by
      intro j hj
      simp only [roughOps, List.mem_cons, Op.send.injEq, List.not_mem_nil, or_false, reduceCtorEq, false_or] at hj
      rcases hj with rfl | rfl | rfl | rfl <;> simp [JsonText.Proper])
    (sampleDevice_owned secure) counter_proper (fun _ => counter_successful) j hj sampleOps sampleOps_proper
    (roughChance_calm (by cases secure <;> decide +kernel))

example (secure : Bool) := C87_setter_recovers Crypto.toyCipher Crypto.toyHashes (sampleDevice secure) .python .orjson keeping roughChance
  (some ("admin", "pw")) none ("admin", "default") "u" (fun n => n) roughChance_fair (sampleDevice_owned secure) keeping_proper
  (fun _ => keeping_successful) "setLight" (by unfold Plain; decide +kernel)
  (.obj [("light", .num 5)]) (by simp [JsonText.Proper, JsonText.ProperKvs, Dict.WF, Dict.keys]) (keeping_sets 5)
  [(.dict [("setLight", .obj [("light", .num 4)])], 3), (.dict [("setLight", .obj [("light", .num 3)])], 3)]
  (by
    intro q hq
    simp only [List.mem_cons, List.not_mem_nil, or_false] at hq
    rcases hq with rfl | rfl <;> intro m q hq <;> simp only [List.mem_cons, Prod.mk.injEq, List.not_mem_nil, or_false] at hq <;>
      obtain ⟨-, rfl⟩ := hq <;> simp [JsonText.Proper, JsonText.ProperKvs, Dict.WF, Dict.keys])
  3 (by decide) 5 ⟨none, none, none, .null, 1⟩ (roughChance_calm (by cases secure <;> decide +kernel))

/-- When the device has restarted it no longer knows the session: without a retry the next query is refused; with one it works. -/
example : ∀ secure ∈ [true, false],
    let net := network Crypto.toyCipher Crypto.toyHashes (sampleDevice secure) sampleConfig .orjson keeping
      { roughChance with fate := fun _ => .fine }
    let t := camTransport Crypto.toyCipher Crypto.toyHashes net sampleConfig .python "u" fun n => n
    let ask (n : Int) (rc : Int) := SmartCam.query t (.dict [("setLight", .obj [("light", .num n)])]) rc
    let s := (ask 1 0 (fresh sampleConfig 5 ⟨none, none, none, .null, 2⟩)).2
    s.world.world.count = 6 ∧ (ask 2 0 s).1.toOption = none ∧ (ask 2 0 s).2.world.world.state = .obj [("light", .num 1)] ∧
      (ask 2 1 s).1 = .ok [("setLight", .value (.obj []))] ∧ (ask 2 1 s).2.world.world.state = .obj [("light", .num 2)] := by
  decide +kernel

example (secure : Bool) := C87_setter_works Crypto.toyCipher Crypto.toyHashes (sampleDevice secure) .python .orjson keeping roughChance
  (some ("admin", "pw")) none ("admin", "default") "u" (fun n => n) ⟨none, none, none, .null, 7⟩ (roughChance_calm (Nat.le_refl _))
  (sampleDevice_owned secure) keeping_proper (fun _ => keeping_successful) "setLight" (by unfold Plain; decide +kernel)
  (.obj [("light", .num 5)]) (by simp [JsonText.Proper, JsonText.ProperKvs, Dict.WF, Dict.keys]) (keeping_sets 5) [] (fun _ h => (nomatch h)) 3 5

end Kasa.CamEndToEnd
