import Verif.Props.AesEndToEnd
import Verif.Lemmas.Heals
/-!
# C87: setters over the AES transport after failures
-/

namespace Kasa.AesEndToEnd
open PyM EndToEnd Aes

/-- How the library reports that a device does not know the session: with the error code the device gave, or an error without one. -/
def Refused (e : Exc) : Prop := e = .kasa ∨ (∃ k, e = .auth k) ∨ ∃ k, e = .device k

section
variable {α : Type} (c : BlockCipher) (owner : Json) (lib lib' : JsonText.Lib) (p : Program α)
variable (x : Chance) (user default : Json) {M : Nat} (uuid : String) (time : Nat → Int)

theorem refused_answer (hr : x.Refuses) (n : Nat) (cfg : Config) (ses : Session) (s : St (World α)) :
    ∃ e s', handleAnswer c cfg ses (x.refusal n) s = (.error e, s') ∧ s'.world = s.world ∧ ((∃ k, e = .retryable k) ∨ Refused e) ∧
      e ≠ .auth (some Codes.loginError) := by
  unfold handleAnswer
  by_cases h200 : (x.refusal n).1 ≠ 200
  · rw [if_pos h200]
    exact ⟨_, _, rfl, rfl, .inr (.inl rfl), by simp⟩
  · rw [if_neg h200]
    obtain ⟨kvs, k, h1, h2, h3, h4⟩ := (hr n).resolve_left h200
    rw [h1, bind_apply]
    have hc : handleCode (.obj kvs) s = handleRaw (some (.num k)) s := by unfold handleCode; simp only [h2]
    rw [hc]
    unfold handleRaw
    rw [Codes.readCode_num]
    simp only [Codes.reported_zero_iff, if_neg h3]
    have hne : CodesSpec.reported k ≠ Codes.loginError := by
      have : CodesSpec.reported k = k ∨ CodesSpec.reported k = -100000 := by unfold CodesSpec.reported; split <;> simp
      have hl : Codes.loginError = -1501 := rfl
      rw [hl]
      omega
    have hcl : Codes.classify (CodesSpec.reported k) = .retryable (some (CodesSpec.reported k)) ∨
        Codes.classify (CodesSpec.reported k) = .auth (some (CodesSpec.reported k)) ∨
        Codes.classify (CodesSpec.reported k) = .device (some (CodesSpec.reported k)) := by
      unfold Codes.classify
      split
      · exact .inl rfl
      · split
        · exact .inr (.inl rfl)
        · exact .inr (.inr rfl)
    rcases hcl with h | h | h <;> rw [h]
    · exact ⟨_, _, rfl, rfl, .inl ⟨_, rfl⟩, by simp⟩
    · exact ⟨_, _, rfl, rfl, .inr (.inr (.inl ⟨_, rfl⟩)), by simpa using hne⟩
    · exact ⟨_, _, rfl, rfl, .inr (.inr (.inr ⟨_, rfl⟩)), by simp⟩

/-- A passthrough request the device refuses. -/
theorem passthrough_refused (hc : x.CalmFrom M) (hr : x.Refuses) (what : What) (request : Bytes) (s : St (World α)) (hM : M ≤ s.world.count)
    {ses : Session} (hses : s.session = some ses)
    (hh : handle c owner lib' p x (targetUrl s) (.passthrough (Crypto.encrypt c ses.key ses.iv request)) s.world = (x.refusal s.world.count, s.world)) :
    ∃ e s', securePassthrough c (network c owner lib' p x) (config lib user default) what request s = (.error e, s') ∧ M ≤ s'.world.count ∧
      s'.world.state = s.world.state ∧ ((∃ k, e = .retryable k) ∨ Refused e) ∧ e ≠ .auth (some Codes.loginError) := by
  unfold securePassthrough
  have hcur : currentSession s = (.ok ses, s) := by unfold currentSession; rw [hses]
  simp only [bind_apply, hcur, get_apply, post]
  have henv : ∀ url ct ck w, (network c owner lib' p x).post url (.passthrough ct) ck w = exchange c owner lib' p x url (.passthrough ct) w :=
    fun _ _ _ _ => rfl
  simp only [henv, exchange_calm c owner lib' p x hc _ _ _ hM, hh]
  generalize hs1 : ({ s with world := _, log := _ } : St (World α)) = s1
  have hw : M ≤ s1.world.count ∧ s1.world.state = s.world.state := by rw [← hs1]; exact ⟨Nat.le_succ_of_le hM, rfl⟩
  obtain ⟨e, s', h1, h2, h3⟩ := refused_answer c x hr s.world.count (config lib user default) ses s1
  exact ⟨e, s', h1, by rw [h2]; exact hw.1, by rw [h2]; exact hw.2, h3⟩

/-- A login without a session at the device. -/
theorem ensureLogin_refused (hc : x.CalmFrom M) (hr : x.Refuses) (s : St (World α)) (hM : M ≤ s.world.count) {ses : Session}
    (hses : s.session = some ses) (hw : s.world.session = none) (hphase : s.phase ≠ .established) :
    ∃ e s', ensureLogin c (network c owner lib' p x) (config lib user default) s = (.error e, s') ∧ M ≤ s'.world.count ∧
      s'.world.state = s.world.state ∧ ((∃ k, e = .retryable k) ∨ Refused e) := by
  obtain ⟨e, s1, h1, h2, h3, h4, h5⟩ := passthrough_refused c owner lib lib' p x user default hc hr .login (loginRequest (config lib user default) user) s
    hM hses (by unfold handle; simp only [hw])
  have h6 : performLogin c (network c owner lib' p x) (config lib user default) s = (.error e, s1) := by
    unfold performLogin
    have ht : tryLogin c (network c owner lib' p x) (config lib user default) (config lib user default).loginParams s = (.error e, s1) := by
      unfold tryLogin
      rw [bind_apply]
      have : securePassthrough c (network c owner lib' p x) (config lib user default) .login
        (loginRequest (config lib user default) (config lib user default).loginParams) s = (.error e, s1) := h1
      rw [this]
    rw [tryExcept_error ht]
    cases e with
    | auth k =>
      simp only
      rw [if_pos (fun h => h5 (by rw [h]))]
      rfl
    | _ => rfl
  unfold ensureLogin
  simp only [bind_apply, get_apply]
  rw [if_pos hphase, tryExcept_error h6]
  cases e with
  | auth k => exact ⟨_, _, rfl, h2, h3, h4⟩
  | _ => exact ⟨_, _, rfl, h2, h3, h4⟩

/-- A request once nothing goes wrong any more: answered, or refused because the device does not know session or token. -/
theorem late_send (hc : x.CalmFrom M) (hr : x.Refuses) (ho : x.Recognises owner user default) (hp : ∀ j a, JsonText.Proper (p.run j a).1)
    (j : Json) (hj : JsonText.Proper j) (s : St (World α)) (hg : Good s) (hM : M ≤ s.world.count) :
    ∃ res s', Aes.send c (network c owner lib' p x) (config lib user default) (utf8 (JsonText.dumps lib j)) s = (res, s') ∧ M ≤ s'.world.count ∧
      ((res = .ok (p.run j s.world.state).1 ∧ s'.world.state = (p.run j s.world.state).2) ∨
        ∃ e, res = .error e ∧ ((∃ k, e = .retryable k) ∨ Refused e) ∧ s'.world.state = s.world.state) := by
  unfold Aes.send
  simp only [bind_apply, modify_apply]
  obtain ⟨s1, h1, h2, h3, h4, h5⟩ := ensureHandshake_calm c owner lib' p x hc ({ s with log := s.log ++ [.call] } : St (World α)) hM
  rw [h1]
  simp only
  have h3 : s1.world.state = s.world.state := h3
  -- the rest once the transport is logged in with a session the device knows
  have hrest : ∀ s2 : St (World α), M ≤ s2.world.count → s2.world.state = s.world.state → Paired s2 → s2.phase = .established → Admitted s2 →
      ∃ res s', securePassthrough c (network c owner lib' p x) (config lib user default) .request (utf8 (JsonText.dumps lib j)) s2 = (res, s') ∧
        M ≤ s'.world.count ∧ ((res = .ok (p.run j s.world.state).1 ∧ s'.world.state = (p.run j s.world.state).2) ∨
        ∃ e, res = .error e ∧ ((∃ k, e = .retryable k) ∨ Refused e) ∧ s'.world.state = s.world.state) := by
    intro s2 k1 k2 k3 k4 k5
    obtain ⟨s', g1, g2, g3⟩ := established_calm c owner lib lib' p x user default hc hp j hj s2 k1 k3 k4 k5
    exact ⟨_, s', g1, g2.1, .inl ⟨by rw [k2], by rw [g3, k2]⟩⟩
  by_cases hpair : Paired s1 ∧ s1.phase ≠ .established
  · obtain ⟨s2, k1, k2, k3, k4, k5, k6⟩ := ensureLogin_calm c owner lib lib' p x user default hc ho s1 h2 hpair.1 h4 (fun h => absurd h hpair.2)
    rw [k1]
    exact hrest s2 k2 (k3.trans h3) k4 k5 k6
  · rcases h5 with ⟨g1, g2⟩ | ⟨g1, g2, g3, g4, g5, g6, g7⟩
    · exact absurd ⟨g2, by rw [g1]; simp⟩ hpair
    · obtain ⟨⟨ses, l1, l2, l3⟩, htok⟩ := hg g1 g2
      have hses : s1.session = some ses := g4.trans l1
      have hw : s1.world.session = none ∨ s1.world.session = some ses := l3.imp (fun h => g6.trans h) (fun h => g6.trans h)
      by_cases hphase : s1.phase = .established
      · -- logged in, as far as the transport knows
        have hlog : ensureLogin c (network c owner lib' p x) (config lib user default) s1 = (.ok (), s1) := by
          unfold ensureLogin
          simp only [bind_apply, get_apply]
          rw [if_neg (by simp [hphase])]
          rfl
        rw [hlog]
        simp only
        have hrefuse : handle c owner lib' p x (targetUrl s1) (.passthrough (Crypto.encrypt c ses.key ses.iv (utf8 (JsonText.dumps lib j)))) s1.world =
              (x.refusal s1.world.count, s1.world) →
            ∃ res s', securePassthrough c (network c owner lib' p x) (config lib user default) .request (utf8 (JsonText.dumps lib j)) s1 = (res, s') ∧
              M ≤ s'.world.count ∧ ((res = .ok (p.run j s.world.state).1 ∧ s'.world.state = (p.run j s.world.state).2) ∨
              ∃ e, res = .error e ∧ ((∃ k, e = .retryable k) ∨ Refused e) ∧ s'.world.state = s.world.state) := by
          intro hh
          obtain ⟨e, s', k1, k2, k3, k4, -⟩ := passthrough_refused c owner lib lib' p x user default hc hr .request _ s1 h2 hses hh
          exact ⟨_, s', k1, k2, .inr ⟨e, rfl, k4, k3.trans h3⟩⟩
        rcases hw with hw | hw
        · exact hrefuse (by unfold handle; simp only [hw])
        · obtain ⟨t, ht⟩ := Option.ne_none_iff_exists'.1 (htok (g3.symm.trans hphase))
          have ht : s1.token = some t := g5.trans ht
          by_cases htw : s1.world.token = some t
          · exact hrest s1 h2 h3 ⟨ses, hses, l2, hw⟩ hphase ⟨t, ht, htw⟩
          · refine hrefuse ?_
            have hurl : targetUrl s1 = .token t := by unfold targetUrl; rw [hphase, ht]
            rw [hurl]
            simp only [handle, hw, Crypto.decrypt_encrypt c _ _ _ l2, Option.bind_some, fromUtf8_utf8, JsonText.C70_round_trip lib j hj]
            rw [if_neg htw]
      · rcases hw with hw | hw
        · obtain ⟨e, s2, k1, k2, k3, k4⟩ := ensureLogin_refused c owner lib lib' p x user default hc hr s1 h2 hses hw hphase
          rw [k1]
          exact ⟨_, s2, rfl, k2, .inr ⟨e, rfl, k4, k3.trans h3⟩⟩
        · exact absurd ⟨⟨ses, hses, l2, hw⟩, hphase⟩ hpair

theorem aes_heals (hc : x.CalmFrom M) (hr : x.Refuses) (ho : x.Recognises owner user default) (hp : ∀ j a, JsonText.Proper (p.run j a).1) :
    Heals (aesTransport c (network c owner lib' p x) (config lib user default) uuid time) p uuid Refused
      (fun s => Good s ∧ M ≤ s.world.count) (fun s => M ≤ s.world.count) (Steady M) fun s => s.world.state := by
  refine ⟨?_, ?_, ?_, ?_⟩
  · rintro w hw s ⟨hg, hM⟩
    obtain ⟨res, s', h1, h2, h3⟩ := late_send c owner lib lib' p x user default hc hr ho hp _ (proper_wire uuid (time s.world.count) w hw) s hg hM
    exact ⟨_, res, s', message_wire uuid (time s.world.count) w, h1, h2, h3⟩
  · intro w hw s hs
    obtain ⟨s', h1, -, h3⟩ := send_calm c owner lib lib' p x user default hc ho hp _ (proper_wire uuid (time s.world.count) w hw) s hs
    exact ⟨_, s', message_wire uuid (time s.world.count) w, h1, h3⟩
  · intro s hM
    exact ⟨(reset s).2, rfl, ⟨hM, fun h => absurd rfl h⟩, rfl⟩
  · rintro e (rfl | ⟨k, rfl⟩ | ⟨k, rfl⟩) <;> trivial

/-- **C87, AES, setters after failures.** After any queries over the AES transport, with whatever failures, once nothing goes wrong any
more: a query that sets something, with at least one retry, returns and has set it; or it raises the error with which the device refuses
what does not belong to a session, with nothing changed, and then the same query, made again, returns and has set it. -/
theorem C87_aes_recovers (hx : x.Fair) (hr : x.Refuses) (ho : x.Recognises owner user default) (hp : ∀ j a, JsonText.Proper (p.run j a).1)
    (m : String) (q : Json) (hq : JsonText.Proper q) {f : α → α} {v : Json} (hset : Sets p uuid (SmartSpec.requestFor m q) f v)
    (before : List (Smart.Query × Int)) (hbefore : ∀ q ∈ before, ProperQuery q.1) (rc : Nat) (hrc : 1 ≤ rc) (batch : Nat) (w : World α) :
    let t := aesTransport c (network c owner lib' p x) (config lib user default) uuid time
    let s := queries t before (fresh batch w)
    let out := Smart.query t (.dict [(m, q)]) rc s
    x.CalmFrom s.world.world.count →
    (out.1 = .ok [(m, .value v)] ∧ out.2.world.world.state = f s.world.world.state) ∨
      ((∃ e, Refused e ∧ out.1 = .error e) ∧ out.2.world.world.state = s.world.world.state ∧ ∀ rc' : Nat,
        let again := Smart.query t (.dict [(m, q)]) rc' out.2
        again.1 = .ok [(m, .value v)] ∧ again.2.world.world.state = f s.world.world.state) := by
  intro t s out hc
  have F : Faithful t p uuid Good fun s => s.world.state := by
    constructor
    · intro w hw s hg
      obtain ⟨res, s', h1, h2, h3⟩ := send_step c owner lib lib' p x user default hx hp _ (proper_wire uuid (time s.world.count) w hw) s hg
      exact ⟨_, res, s', message_wire uuid _ w, h1, h2, h3⟩
    · intro s _
      exact ⟨good_reset s, rfl⟩
  have hg : Good s.world := (F.queries_explains before (fresh batch w) hbefore (good_new w)).1
  obtain ⟨rc, rfl⟩ : ∃ r, rc = r + 1 := ⟨rc - 1, by omega⟩
  exact (aes_heals c owner lib lib' p x user default uuid time hc hr ho hp).setter m q hq hset rc s ⟨hg, Nat.le_refl _⟩

end

/-! ## Examples -/

/-- The device restarts before the second request, which gets lost; afterwards it answers with `code` to what it does not know. -/
def roughChance (code : Int) : Chance :=
  { sampleChance with
    fate := fun n => if n = 5 then .lost (.error .connection) else .fine
    restart := fun n => n = 5
    refusal := fun _ => (200, .obj [("error_code", .num code)]) }

abbrev roughQueries : List (Smart.Query × Int) := [(.dict [("set", .num 3)], 0), (.dict [("set", .num 4)], 0)]

abbrev roughState (code : Int) := queries (setterTransport (roughChance code)) roughQueries (fresh 5 ⟨none, none, .null, 0⟩)

theorem roughChance_fair (code : Int) (h0 : code ≠ 0) : (roughChance code).Fair := by
  refine ⟨fun n => ?_, sampleChance_fair.key, fun n _ => ?_, sampleChance_fair.unlock⟩
  · simp only [roughChance]
    split
    · exact fun b hb => nomatch hb
    · trivial
  · simp [roughChance, AesSpec.successful, Json.get?, Dict.get?, h0]

theorem roughChance_calm (code : Int) : (roughChance code).CalmFrom 6 := by
  refine ⟨fun k hk => ?_, fun k hk => ?_, fun _ _ => ⟨rfl, rfl⟩, fun n _ => ?_, fun k _ v hv => (nomatch hv), fun b _ => unlock_lock b⟩
  · show (if k = 5 then _ else _) = _
    rw [if_neg (by omega)]
  · show decide (k = 5) = false
    exact decide_eq_false (by omega)
  · simp [roughChance, sampleChance, JsonText.Proper]

theorem rough_count : ∀ code ∈ [(-1008 : Int), -1005, 9999], (roughState code).world.world.count = 6 := by decide +kernel

example (code : Int) (hcode : code ∈ [(-1008 : Int), -1005, 9999]) := C87_aes_recovers Crypto.toyCipher (.str "user") .python .orjson setting
  (roughChance code) (.str "user") (.str "default") "u" (fun n => n)
  (roughChance_fair code (by simp only [List.mem_cons, List.not_mem_nil, or_false] at hcode; omega))
  (fun n => .inr ⟨_, code, rfl, rfl, by
    simp only [List.mem_cons, List.not_mem_nil, or_false] at hcode
    constructor <;> omega⟩)
  ⟨by simp [JsonText.Proper], fun h => absurd rfl h⟩ setting_proper "set" (.num 5) (by simp [JsonText.Proper]) (setting_sets (.num 5) rfl) roughQueries
  (by
    intro q hq
    simp only [roughQueries, List.mem_cons, List.not_mem_nil, or_false] at hq
    rcases hq with rfl | rfl <;> intro m q hq <;> simp only [List.mem_cons, Prod.mk.injEq, List.not_mem_nil, or_false] at hq <;>
      obtain ⟨-, rfl⟩ := hq <;> simp [JsonText.Proper])
  1 (by decide) 5 ⟨none, none, .null, 0⟩ (by rw [rough_count code hcode]; exact roughChance_calm code)

/-- Depending on how the device refuses a session it has forgotten, the query works at once or is refused first. -/
theorem rough_outcomes : (Smart.query (setterTransport (roughChance 9999)) (.dict [("set", .num 5)]) 1 (roughState 9999)).1 =
      .ok [("set", .value (.obj []))] ∧
    (Smart.query (setterTransport (roughChance (-1005))) (.dict [("set", .num 5)]) 1 (roughState (-1005))).1 = .error (.auth (some (-1005))) ∧
    (Smart.query (setterTransport (roughChance (-1008))) (.dict [("set", .num 5)]) 1 (roughState (-1008))).1 = .error (.device (some (-1008))) := by
  decide +kernel

end Kasa.AesEndToEnd
