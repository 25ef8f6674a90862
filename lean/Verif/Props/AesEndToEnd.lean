import Verif.Props.JsonText
import Verif.Props.Names
import Verif.Lemmas.Aes
import Verif.Lemmas.Faithful
import Verif.Spec.AesEndToEnd
/-!
# C78: the same with the AES transport
-/

namespace Kasa.AesEndToEnd
open PyM EndToEnd Aes

theorem unb64_encode (b : Bytes) : unb64 (String.ofList (B64.encode b)) = some b := by
  unfold unb64
  have h : (String.ofList (B64.encode b)).toList = B64.encode b := by simp
  rw [h, if_pos, B64.decode_encode]
  rw [List.all_eq_true]
  intro ch hch
  have : ch ∈ '=' :: B64.alphabet := by
    rcases B64.mem_encode hch with rfl | h
    · exact .head _
    · exact .tail _ h
  simpa using Names.alphabet_ascii ch this

section
variable {α : Type} (c : BlockCipher) (owner : Json) (lib lib' : JsonText.Lib) (p : Program α)
variable (x : Chance) (user default : Json)

/-- What holds of transport and device when a session is in use. -/
def Linked (s : St (World α)) : Prop :=
  ∃ ses, s.session = some ses ∧ ses.iv.length = 16 ∧ (s.world.session = none ∨ s.world.session = some ses)

/-- What holds of transport and device between two requests. -/
def Good (s : St (World α)) : Prop :=
  s.phase ≠ .handshakeRequired → s.expireAt ≠ none → Linked s ∧ (s.phase = .established → s.token ≠ none)

/-- What an exchange can come to. -/
theorem exchange_cases (hx : x.Fair) (url : Url) (body : Body) (w : World α) :
    ∃ w1 : World α, (w1 = w ∨ w1 = w.restarted) ∧
      (((∀ b, (exchange c owner lib p x url body w).1 ≠ .ok (200, b)) ∧
          (exchange c owner lib p x url body w).2 = { w1 with count := w.count + 1 }) ∨
        (((exchange c owner lib p x url body w).1 = .ok (handle c owner lib p x url body w1).1 ∨
            ∀ b, (exchange c owner lib p x url body w).1 ≠ .ok (200, b)) ∧
          (exchange c owner lib p x url body w).2 =
            { (handle c owner lib p x url body w1).2 with count := w.count + 1 })) := by
  unfold exchange
  simp only
  have hc : (if x.restart w.count = true then w.restarted else w).count = w.count := by
    split <;> rfl
  have hw : (if x.restart w.count = true then w.restarted else w) = w ∨
      (if x.restart w.count = true then w.restarted else w) = w.restarted := by
    split
    · exact .inr rfl
    · exact .inl rfl
  revert hc hw
  generalize (if x.restart w.count = true then w.restarted else w) = w1
  intro hc hw
  rw [hc]
  have hf := hx.fate w.count
  refine ⟨w1, hw, ?_⟩
  split
  · exact .inr ⟨.inl rfl, rfl⟩
  · next heq => rw [heq] at hf; exact .inl ⟨hf, rfl⟩
  · next heq => rw [heq] at hf; exact .inr ⟨.inr hf, rfl⟩

/-- An answer with status 200 comes from the device. -/
theorem exchange_ok (hx : x.Fair) {url : Url} {body : Body} {b : Json} {w w' : World α}
    (he : exchange c owner lib p x url body w = (.ok (200, b), w')) :
    ∃ w1 : World α, (w1 = w ∨ w1 = w.restarted) ∧ (handle c owner lib p x url body w1).1 = (200, b) ∧
      w' = { (handle c owner lib p x url body w1).2 with count := w.count + 1 } := by
  obtain ⟨w1, hw, ⟨h1, h2⟩ | ⟨h1 | h1, h2⟩⟩ := exchange_cases c owner lib p x hx url body w
  · exact absurd (by rw [he]) (h1 b)
  · rw [he] at h1 h2
    exact ⟨w1, hw, (Except.ok.inj h1).symm, h2⟩
  · exact absurd (by rw [he]) (h1 b)

/-- Only requests with a token reach the program. -/
theorem exchange_state (url : Url) (body : Body) (hu : body = .handshake ∨ url = .app) (w : World α) :
    (exchange c owner lib p x url body w).2.state = w.state := by
  have hh : ∀ w : World α, (handle c owner lib p x url body w).2.state = w.state := by
    intro w
    unfold handle
    cases body with
    | handshake => rfl
    | passthrough ct =>
      simp only
      rcases hu with h | rfl
      · cases h
      · cases w.session with
        | none => rfl
        | some ses =>
          simp only
          split
          · rfl
          · split <;> rfl
  unfold exchange
  simp only
  split <;> (simp only [hh]; split <;> rfl)

/-- Requests within a session leave it as it is, or the device loses it. -/
theorem exchange_session (hx : x.Fair) (url : Url) (ct : Bytes) (w : World α) :
    (exchange c owner lib p x url (.passthrough ct) w).2.session = w.session ∨
      (exchange c owner lib p x url (.passthrough ct) w).2.session = none := by
  have hh : ∀ w : World α, (handle c owner lib p x url (.passthrough ct) w).2.session = w.session := by
    intro w
    unfold handle
    simp only
    cases hs : w.session with
    | none => simp [hs]
    | some ses =>
      simp only
      split
      · exact hs
      · split
        · split
          · rfl
          · exact hs
        · split
          · rfl
          · exact hs
  obtain ⟨w1, hw, ⟨-, h2⟩ | ⟨-, h2⟩⟩ := exchange_cases c owner lib p x hx url (.passthrough ct) w
  · rw [h2]
    rcases hw with rfl | rfl
    · exact .inl rfl
    · exact .inr rfl
  · rw [h2]
    simp only [hh]
    rcases hw with rfl | rfl
    · exact .inl rfl
    · exact .inr rfl

/-- The handshake answer of the device can be read. -/
theorem finishHandshake_device (hx : x.Fair) (n : Nat) (s : St (World α)) (hs : s.world.session = some (x.key n)) (he : s.expireAt = none) :
    ∃ r s', finishHandshake (network c owner lib p x)
        (200, .obj [("error_code", .num 0), ("result", .obj [("key", x.lock ((x.key n).key ++ (x.key n).iv))])]) s = (r, s') ∧
      s'.world.state = s.world.state ∧
      ((∃ e, r = .error e ∧ s'.expireAt = none) ∨ r = .ok () ∧ s'.phase = .loginRequired ∧ s'.expireAt ≠ none ∧ Linked s') := by
  unfold finishHandshake
  rw [if_neg (by simp), bind_apply]
  have h1 : handleCode (.obj [("error_code", .num 0), ("result", .obj [("key", x.lock ((x.key n).key ++ (x.key n).iv))])]) s = (.ok (), s) := rfl
  rw [h1]
  simp only
  have h2 : resultOf (.obj [("error_code", .num 0), ("result", .obj [("key", x.lock ((x.key n).key ++ (x.key n).iv))])]) "key" =
      .ok (x.lock ((x.key n).key ++ (x.key n).iv)) := rfl
  rw [h2, bind_apply, lift_apply]
  simp only
  obtain ⟨ck, evs, h3, -⟩ := takeCookie_spec (network c owner lib p x) s
  rw [bind_apply, h3]
  simp only [bind_apply, getCookie_apply, lift_apply]
  cases timeoutOf (network c owner lib p x) ((network c owner lib p x).cookie "TIMEOUT" s.world) with
  | error e => exact ⟨_, _, rfl, rfl, .inl ⟨e, rfl, he⟩⟩
  | ok n' =>
    simp only [now, modify_apply, openKey]
    have hlen : ((x.key n).key ++ (x.key n).iv).length = 32 := by
      rw [List.length_append, (hx.key n).1, (hx.key n).2]
    have hmake : ((network c owner lib p x).openKey (x.lock ((x.key n).key ++ (x.key n).iv)) ((network c owner lib p x).now s.world).2).bind Session.make =
        some (x.key n) := by
      show (x.unlock _).bind Session.make = _
      rw [hx.unlock _ hlen]
      show Session.make _ = _
      unfold Session.make
      rw [if_pos hlen, List.take_left' (hx.key n).1, List.drop_left' (hx.key n).1]
    simp only [hmake]
    exact ⟨_, _, rfl, rfl, .inr ⟨rfl, rfl, by simp, x.key n, rfl, (hx.key n).2, .inr hs⟩⟩

/-- A handshake: both sides have the same key afterwards, or the client knows that it has none. -/
theorem handshake_step (hx : x.Fair) (s : St (World α)) :
    ∃ r s', performHandshake (network c owner lib p x) s = (r, s') ∧ s'.world.state = s.world.state ∧
      ((∃ e, r = .error e ∧ s'.expireAt = none) ∨ r = .ok () ∧ s'.phase = .loginRequired ∧ s'.expireAt ≠ none ∧ Linked s') := by
  unfold performHandshake
  rw [bind_apply, modify_apply]
  simp only
  rw [bind_apply]
  unfold post
  have hst := exchange_state c owner lib p x .app .handshake (.inl rfl) s.world
  obtain ⟨w1, hw, hcase⟩ := exchange_cases c owner lib p x hx .app .handshake s.world
  have henv : ∀ ck w, (network c owner lib p x).post .app .handshake ck w = exchange c owner lib p x .app .handshake w := fun _ _ => rfl
  simp only [henv]
  generalize exchange c owner lib p x .app .handshake s.world = X at hst hcase
  obtain ⟨o, w'⟩ := X
  simp only at hst hcase ⊢
  have hfin : ∀ r : Int × Json, (∀ b, Except.ok (ε := Exc) r ≠ .ok (200, b)) → ∀ s1 : St (World α),
      finishHandshake (network c owner lib p x) r s1 = (.error .kasa, s1) := by
    intro r ho s1
    unfold finishHandshake
    rw [if_pos (fun h => ho r.2 (by rw [← h]))]
    rfl
  rcases hcase with ⟨ho, hw'⟩ | ⟨ho | ho, hw'⟩
  · cases o with
    | error e => exact ⟨_, _, rfl, hst, .inl ⟨e, rfl, rfl⟩⟩
    | ok r =>
      simp only [hfin r ho]
      exact ⟨_, _, rfl, hst, .inl ⟨_, rfl, rfl⟩⟩
  · subst ho
    simp only
    obtain ⟨r, s', g1, g2, g3⟩ := finishHandshake_device c owner lib p x hx w1.count
      { s with token := none, expireAt := none, sessionCookie := none, world := w', log := s.log ++ [.post .handshake .app .handshake none (.ok (handle c owner lib p x .app .handshake w1).1)] }
      (by rw [hw']; rfl) rfl
    exact ⟨r, s', g1, g2.trans hst, g3⟩
  · cases o with
    | error e => exact ⟨_, _, rfl, hst, .inl ⟨e, rfl, rfl⟩⟩
    | ok r =>
      simp only [hfin r ho]
      exact ⟨_, _, rfl, hst, .inl ⟨_, rfl, rfl⟩⟩

/-- What an answer to a request within a session does to the transport: at most it gives the session up. -/
theorem handleCode_phase (resp : Json) (s : St (World α)) : (handleCode resp s).2 = s ∨
    (handleCode resp s).2 = { s with phase := .handshakeRequired } ∧ ∃ e, (handleCode resp s).1 = .error e := by
  rcases handleCode_spec resp s with ⟨-, -, h⟩ | ⟨-, e, h⟩
  · rw [h]; exact .inl rfl
  · rw [h]
    by_cases hr : AesSpec.refused resp = true
    · rw [if_pos hr]; exact .inr ⟨rfl, e, rfl⟩
    · rw [if_neg hr]; exact .inl rfl

theorem handleAnswer_phase (cfg : Config) (ses : Session) (r : Int × Json) (s : St (World α)) : (handleAnswer c cfg ses r s).2 = s ∨
    (handleAnswer c cfg ses r s).2 = { s with phase := .handshakeRequired } ∧ ∃ e, (handleAnswer c cfg ses r s).1 = .error e := by
  unfold handleAnswer
  split
  · exact .inl rfl
  · rw [bind_apply]
    have := handleCode_phase r.2 s
    revert this
    rcases handleCode r.2 s with ⟨o, s1⟩
    intro h
    cases o with
    | error e => rcases h with h | h; exact .inl h; exact .inr ⟨h.1, e, rfl⟩
    | ok u =>
      rcases h with h | ⟨-, e, h⟩
      · simp only at h
        subst h
        simp only [bind_apply, lift_apply]
        cases resultOf r.2 "response" with
        | error e => exact .inl rfl
        | ok v => exact .inl rfl
      · cases h

/-- A login: the program is not touched. -/
theorem login_step (hx : x.Fair) (params : Json) (s : St (World α)) (hl : Linked s) (hphase : s.phase ≠ .established) (he : s.expireAt ≠ none) :
    ∃ r s', tryLogin c (network c owner lib' p x) (config lib user default) params s = (r, s') ∧ s'.world.state = s.world.state ∧ Linked s' ∧
      s'.expireAt ≠ none ∧ ((∃ e, r = .error e ∧ s'.phase ≠ .established) ∨ r = .ok () ∧ s'.phase = .established ∧ s'.token ≠ none) := by
  obtain ⟨ses, hses, hiv, hw⟩ := hl
  unfold tryLogin securePassthrough
  have hcur : currentSession s = (.ok ses, s) := by unfold currentSession; rw [hses]
  have hurl : targetUrl s = .app := by
    unfold targetUrl
    cases hp : s.phase with
    | established => exact absurd hp hphase
    | handshakeRequired => rfl
    | loginRequired => rfl
  simp only [bind_apply, hcur, get_apply, hurl, post]
  generalize hct : Crypto.encrypt c ses.key ses.iv (loginRequest (config lib user default) params) = ct
  have henv : ∀ ck w, (network c owner lib' p x).post .app (.passthrough ct) ck w = exchange c owner lib' p x .app (.passthrough ct) w := fun _ _ => rfl
  simp only [henv]
  have hst := exchange_state c owner lib' p x .app (.passthrough ct) (.inr rfl) s.world
  have hses' := exchange_session c owner lib' p x hx .app ct s.world
  generalize exchange c owner lib' p x .app (.passthrough ct) s.world = X at hst hses'
  obtain ⟨o, w'⟩ := X
  simp only at hst hses' ⊢
  have hlink : ∀ (phase : Phase) (token : Option Json) (log : List Ev),
      Linked ({ s with phase := phase, token := token, world := w', log := log } : St (World α)) := by
    intro phase token log
    refine ⟨ses, hses, hiv, ?_⟩
    rcases hses' with h | h
    · rcases hw with hw | hw
      · exact .inl (h.trans hw)
      · exact .inr (h.trans hw)
    · exact .inl h
  cases o with
  | error e => exact ⟨_, _, rfl, hst, hlink _ _ _, he, .inl ⟨e, rfl, hphase⟩⟩
  | ok r =>
    simp only
    have h1 := handleAnswer_phase c (config lib user default) ses r
      { s with world := w', log := s.log ++ [.post .login .app (.passthrough ct) s.sessionCookie (.ok r)] }
    revert h1
    generalize handleAnswer c (config lib user default) ses r
      { s with world := w', log := s.log ++ [.post .login .app (.passthrough ct) s.sessionCookie (.ok r)] } = Y
    obtain ⟨o, s1⟩ := Y
    intro h1
    cases o with
    | error e =>
      simp only at h1 ⊢
      rcases h1 with rfl | ⟨rfl, -⟩
      · exact ⟨_, _, rfl, hst, hlink _ _ _, he, .inl ⟨e, rfl, hphase⟩⟩
      · exact ⟨_, _, rfl, hst, hlink _ _ _, he, .inl ⟨e, rfl, by simp⟩⟩
    | ok resp =>
      simp only at h1 ⊢
      rcases h1 with rfl | ⟨-, e, h⟩
      · have h2 := handleCode_phase resp
          { s with world := w', log := s.log ++ [.post .login .app (.passthrough ct) s.sessionCookie (.ok r)] }
        revert h2
        generalize handleCode resp
          { s with world := w', log := s.log ++ [.post .login .app (.passthrough ct) s.sessionCookie (.ok r)] } = Z
        obtain ⟨o, s2⟩ := Z
        intro h2
        cases o with
        | error e =>
          simp only at h2 ⊢
          rcases h2 with rfl | ⟨rfl, -⟩
          · exact ⟨_, _, rfl, hst, hlink _ _ _, he, .inl ⟨e, rfl, hphase⟩⟩
          · exact ⟨_, _, rfl, hst, hlink _ _ _, he, .inl ⟨e, rfl, by simp⟩⟩
        | ok u =>
          simp only at h2 ⊢
          rcases h2 with rfl | ⟨-, e, h⟩
          · simp only [lift_apply]
            cases resultOf resp "token" with
            | error e => exact ⟨_, _, rfl, hst, hlink _ _ _, he, .inl ⟨e, rfl, hphase⟩⟩
            | ok t => exact ⟨_, _, rfl, hst, hlink _ _ _, he, .inr ⟨rfl, rfl, by simp⟩⟩
          · cases h
      · cases h

/-- What a step that is not a request of the user does: the program is not touched, and afterwards there is a usable session or
none. -/
def Step (r : Except Exc Unit) (s s' : St (World α)) (Ready : St (World α) → Prop) : Prop :=
  s'.world.state = s.world.state ∧ ((∃ e, r = .error e ∧ Good s') ∨ r = .ok () ∧ Linked s' ∧ s'.expireAt ≠ none ∧ Ready s')

/-- The logins: the transport has a token afterwards, or fails. -/
theorem performLogin_step (hx : x.Fair) (s : St (World α)) (hl : Linked s) (hphase : s.phase ≠ .established) (he : s.expireAt ≠ none) :
    ∃ r s', performLogin c (network c owner lib' p x) (config lib user default) s = (r, s') ∧
      Step r s s' fun s' => s'.phase = .established ∧ s'.token ≠ none := by
  have hfailed : ∀ s' : St (World α), Linked s' → s'.phase ≠ .established → Good s' := fun s' h1 h2 _ _ => ⟨h1, fun h => absurd h h2⟩
  unfold performLogin
  obtain ⟨r, s1, h1, h2, h3, h4, h5⟩ := login_step c owner lib lib' p x user default hx user s hl hphase he
  have hu : (config lib user default).loginParams = user := rfl
  have hd : (config lib user default).defaultParams = default := rfl
  rw [hu, hd]
  rcases h5 with ⟨e, rfl, h5⟩ | ⟨rfl, h5, h6⟩
  · rw [tryExcept_error h1]
    have hbad : ∀ e', ∃ r s', (raise e' : PyM (St (World α)) Unit) s1 = (r, s') ∧ Step r s s' fun s' => s'.phase = .established ∧ s'.token ≠ none :=
      fun e' => ⟨_, _, rfl, h2, .inl ⟨e', rfl, hfailed s1 h3 h5⟩⟩
    cases e with
    | auth code =>
      simp only
      by_cases hcode : code ≠ some Codes.loginError
      · rw [if_pos hcode]
        exact hbad (.auth code)
      · rw [if_neg hcode]
        -- the handshake, and the login with the default credentials
        obtain ⟨r, s2, g1, g2, g3⟩ := handshake_step c owner lib' p x hx s1
        have hraise : ∀ (e : Exc) (s3 : St (World α)), s3.world.state = s.world.state → Good s3 →
            ∃ r s', (match e with | .auth _ | .connection | .timeout | .base => raise e | _ => raise .kasa : PyM (St (World α)) Unit) s3 = (r, s') ∧
              Step r s s' fun s' => s'.phase = .established ∧ s'.token ≠ none := by
          intro e s3 k1 k2
          cases e <;> exact ⟨_, _, rfl, k1, .inl ⟨_, rfl, k2⟩⟩
        rcases g3 with ⟨e, rfl, g3⟩ | ⟨rfl, g3, g4, g5⟩
        · rw [tryExcept_error (s' := s2) (e := e) (by rw [bind_apply, g1])]
          have := hraise e s2 (g2.trans h2) (fun _ h => absurd g3 h)
          cases e <;> exact this
        · obtain ⟨r, s3, k1, k2, k3, k4, k5⟩ := login_step c owner lib lib' p x user default hx default s2 g5 (by rw [g3]; simp) g4
          rcases k5 with ⟨e, rfl, k5⟩ | ⟨rfl, k5, k6⟩
          · rw [tryExcept_error (s' := s3) (e := e) (by rw [bind_apply, g1]; exact k1)]
            have := hraise e s3 (k2.trans (g2.trans h2)) (hfailed s3 k3 k5)
            cases e <;> exact this
          · rw [tryExcept_ok (s' := s3) (a := ()) (by rw [bind_apply, g1]; exact k1)]
            exact ⟨_, _, rfl, k2.trans (g2.trans h2), .inr ⟨rfl, k3, k4, k5, k6⟩⟩
    | _ => exact hbad _
  · rw [tryExcept_ok h1]
    exact ⟨_, _, rfl, h2, .inr ⟨rfl, h3, h4, h5, h6⟩⟩

theorem ensureHandshake_step (hx : x.Fair) (s : St (World α)) (hg : Good s) :
    ∃ r s', ensureHandshake (network c owner lib p x) s = (r, s') ∧ Step r s s' fun s' => s'.phase = .established → s'.token ≠ none := by
  have hshake : ∀ s0 : St (World α), s0.world.state = s.world.state → ∃ r s', performHandshake (network c owner lib p x) s0 = (r, s') ∧
      Step r s s' fun s' => s'.phase = .established → s'.token ≠ none := by
    intro s0 h0
    obtain ⟨r, s1, g1, g2, ⟨e, rfl, g3⟩ | ⟨rfl, g3, g4, g5⟩⟩ := handshake_step c owner lib p x hx s0
    · exact ⟨_, s1, g1, g2.trans h0, .inl ⟨e, rfl, fun _ h => absurd g3 h⟩⟩
    · exact ⟨_, s1, g1, g2.trans h0, .inr ⟨rfl, g5, g4, fun h => by rw [g3] at h; cases h⟩⟩
  unfold ensureHandshake needsHandshake sessionExpired
  simp only [bind_apply, get_apply]
  by_cases hphase : s.phase = .handshakeRequired
  · rw [if_pos hphase]
    simp only [pure_apply, if_true]
    exact hshake s rfl
  · rw [if_neg hphase]
    simp only [bind_apply, get_apply]
    cases hexp : s.expireAt with
    | none =>
      simp only [pure_apply, if_true]
      exact hshake s rfl
    | some t =>
      simp only [bind_apply, now, network, pure_apply]
      split
      · exact hshake { s with world := { s.world with count := s.world.count + 1 }, log := s.log ++ [.clock (x.clock s.world.count)] } rfl
      · obtain ⟨h1, h2⟩ := hg hphase (by rw [hexp]; simp)
        refine ⟨_, _, rfl, rfl, .inr ⟨rfl, h1, by rw [hexp]; simp, h2⟩⟩

theorem ensureLogin_step (hx : x.Fair) (s : St (World α)) (hl : Linked s) (he : s.expireAt ≠ none) (ht : s.phase = .established → s.token ≠ none) :
    ∃ r s', ensureLogin c (network c owner lib' p x) (config lib user default) s = (r, s') ∧
      Step r s s' fun s' => s'.phase = .established ∧ s'.token ≠ none := by
  unfold ensureLogin
  simp only [bind_apply, get_apply]
  by_cases hphase : s.phase = .established
  · rw [if_neg (by simp [hphase])]
    exact ⟨_, _, rfl, rfl, .inr ⟨rfl, hl, he, hphase, ht hphase⟩⟩
  · rw [if_pos hphase]
    obtain ⟨r, s1, h1, h2, ⟨e, rfl, h3⟩ | ⟨rfl, h3⟩⟩ := performLogin_step c owner lib lib' p x user default hx s hl hphase he
    · rw [tryExcept_error h1]
      cases e with
      | auth code => exact ⟨_, _, rfl, h2, .inl ⟨_, rfl, fun h => absurd rfl h⟩⟩
      | _ => exact ⟨_, _, rfl, h2, .inl ⟨_, rfl, h3⟩⟩
    · rw [tryExcept_ok h1]
      exact ⟨_, _, rfl, h2, .inr ⟨rfl, h3⟩⟩

/-- What the device does with a request of the user. -/
theorem handle_request (hx : x.Fair) {ses : Session} (hiv : ses.iv.length = 16) (t j : Json) (hj : JsonText.Proper j) (w : World α)
    (hw : w.session = none ∨ w.session = some ses) :
    let r := handle c owner lib' p x (.token t) (.passthrough (Crypto.encrypt c ses.key ses.iv (utf8 (JsonText.dumps lib j)))) w
    (r.2.state = w.state ∧ (r.1.1 = 200 → AesSpec.successful r.1.2 = false)) ∨
      (r.2.state = (p.run j w.state).2 ∧ r.1 = sealed c lib' ses (p.run j w.state).1) := by
  intro r
  show (r.2.state = _ ∧ _) ∨ _
  rcases hw with hw | hw
  · simp only [r, handle, hw]
    exact .inl ⟨trivial, hx.refusal _⟩
  · simp only [r, handle, hw, Crypto.decrypt_encrypt c _ _ _ hiv, Option.bind_some, fromUtf8_utf8, JsonText.C70_round_trip lib j hj]
    split
    · exact .inr ⟨rfl, rfl⟩
    · exact .inl ⟨rfl, hx.refusal _⟩

theorem openResponse_text {ses : Session} (hiv : ses.iv.length = 16) (v : Json) (hv : JsonText.Proper v) (text : String)
    (ht : unb64 text = some (Crypto.encrypt c ses.key ses.iv (utf8 (JsonText.dumps lib' v)))) :
    openResponse c (config lib user default) ses (.str text) = .ok v := by
  unfold openResponse config
  simp only [ht, Option.bind_some, Crypto.decrypt_encrypt c _ _ _ hiv, fromUtf8_utf8, JsonText.C70_round_trip lib' v hv]

theorem handleAnswer_text (cfg : Config) {ses : Session} (text : String) (v : Json) (h : openResponse c cfg ses (.str text) = .ok v)
    (s : St (World α)) :
    handleAnswer c cfg ses (200, .obj [("error_code", .num 0), ("result", .obj [("response", .str text)])]) s = (.ok v, s) := by
  unfold handleAnswer
  have h1 : handleCode (.obj [("error_code", .num 0), ("result", .obj [("response", .str text)])]) s = (.ok (), s) := rfl
  have h2 : resultOf (.obj [("error_code", .num 0), ("result", .obj [("response", .str text)])]) "response" = .ok (.str text) := rfl
  rw [if_neg (by simp), bind_apply]
  simp only [h1, bind_apply, lift_apply, h2, h]

/-- How the transport reads an answer of the device. -/
theorem handleAnswer_sealed {ses : Session} (hiv : ses.iv.length = 16) (v : Json) (hv : JsonText.Proper v) (s : St (World α)) :
    handleAnswer c (config lib user default) ses (sealed c lib' ses v) s = (.ok v, s) := by
  unfold sealed
  exact handleAnswer_text c _ _ v (openResponse_text c lib lib' user default hiv v hv _ (unb64_encode _)) s

/-- A request of the user, once there is a session and a token. -/
theorem request_step (hx : x.Fair) (hp : ∀ j a, JsonText.Proper (p.run j a).1) (j : Json) (hj : JsonText.Proper j) (s : St (World α))
    (hl : Linked s) (hphase : s.phase = .established) (ht : s.token ≠ none) :
    ∃ res s', securePassthrough c (network c owner lib' p x) (config lib user default) .request (utf8 (JsonText.dumps lib j)) s = (res, s') ∧
      Good s' ∧ ((∃ e, res = .error e ∧ s'.world.state = s.world.state) ∨
        (∃ e, res = .error e ∧ s'.world.state = (p.run j s.world.state).2) ∨
        (res = .ok (p.run j s.world.state).1 ∧ s'.world.state = (p.run j s.world.state).2)) := by
  obtain ⟨ses, hses, hiv, hw⟩ := hl
  obtain ⟨t, ht⟩ := Option.ne_none_iff_exists'.1 ht
  unfold securePassthrough
  have hcur : currentSession s = (.ok ses, s) := by unfold currentSession; rw [hses]
  have hurl : targetUrl s = .token t := by unfold targetUrl; rw [hphase, ht]
  simp only [bind_apply, hcur, get_apply, hurl, post]
  have henv : ∀ ct ck w, (network c owner lib' p x).post (.token t) (.passthrough ct) ck w = exchange c owner lib' p x (.token t) (.passthrough ct) w :=
    fun _ _ _ => rfl
  simp only [henv]
  obtain ⟨w1, hw1, hcase⟩ := exchange_cases c owner lib' p x hx (.token t) (.passthrough (Crypto.encrypt c ses.key ses.iv (utf8 (JsonText.dumps lib j)))) s.world
  have hses' := exchange_session c owner lib' p x hx (.token t) (Crypto.encrypt c ses.key ses.iv (utf8 (JsonText.dumps lib j))) s.world
  have hw1s : w1.session = none ∨ w1.session = some ses := by
    rcases hw1 with rfl | rfl
    · exact hw
    · exact .inl rfl
  have hstate : w1.state = s.world.state := by
    rcases hw1 with rfl | rfl <;> rfl
  have hdev := handle_request c owner lib lib' p x hx hiv t j hj w1 hw1s
  simp only at hdev
  generalize Crypto.encrypt c ses.key ses.iv (utf8 (JsonText.dumps lib j)) = ct at *
  generalize exchange c owner lib' p x (.token t) (.passthrough ct) s.world = X at *
  obtain ⟨o, w'⟩ := X
  simp only at hcase hses' ⊢
  have hlink : ∀ (phase : Phase) (log : List Ev), Good ({ s with phase := phase, world := w', log := log } : St (World α)) := by
    intro phase log _ _
    refine ⟨⟨ses, hses, hiv, ?_⟩, fun _ => by simp [ht]⟩
    rcases hses' with h | h
    · rcases hw with hw | hw
      · exact .inl (h.trans hw)
      · exact .inr (h.trans hw)
    · exact .inl h
  -- an answer that is not one of the device to this request is an error
  have herr : ∀ r : Int × Json, (r.1 = 200 → AesSpec.successful r.2 = false) → ∀ log, ∃ e s',
      handleAnswer c (config lib user default) ses r ({ s with world := w', log := log } : St (World α)) = (.error e, s') ∧ Good s' ∧ s'.world = w' := by
    intro r hr log
    unfold handleAnswer
    by_cases h200 : r.1 = 200
    · rw [if_neg (by simp [h200]), bind_apply]
      rcases handleCode_spec r.2 ({ s with world := w', log := log } : St (World α)) with ⟨h, -, -⟩ | ⟨-, e, h⟩
      · rw [hr h200] at h; cases h
      · rw [h]
        refine ⟨e, _, rfl, ?_⟩
        split
        · exact ⟨hlink _ _, rfl⟩
        · exact ⟨hlink _ _, rfl⟩
    · rw [if_pos h200]
      exact ⟨_, _, rfl, hlink _ _, rfl⟩
  have hnot : ∀ r : Int × Json, (∀ b, Except.ok (ε := Exc) r ≠ .ok (200, b)) → r.1 = 200 → AesSpec.successful r.2 = false :=
    fun r h h200 => absurd (by rw [← h200]) (h r.2)
  rcases hcase with ⟨ho, hw'⟩ | ⟨ho | ho, hw'⟩
  · have hst : w'.state = s.world.state := by rw [hw']; exact hstate
    cases o with
    | error e => exact ⟨_, _, rfl, hlink _ _, .inl ⟨e, rfl, hst⟩⟩
    | ok r =>
      obtain ⟨e, s', k1, k2, k3⟩ := herr r (hnot r ho) (s.log ++ [.post .request (.token t) (.passthrough ct) s.sessionCookie (.ok r)])
      exact ⟨_, s', k1, k2, .inl ⟨e, rfl, by rw [k3]; exact hst⟩⟩
  · subst ho
    simp only
    rcases hdev with ⟨g1, g2⟩ | ⟨g1, g2⟩
    · have hst : w'.state = s.world.state := by rw [hw']; exact g1.trans hstate
      obtain ⟨e, s', k1, k2, k3⟩ := herr _ g2 (s.log ++ [.post .request (.token t) (.passthrough ct) s.sessionCookie (.ok (handle c owner lib' p x (.token t) (.passthrough ct) w1).1)])
      exact ⟨_, s', k1, k2, .inl ⟨e, rfl, by rw [k3]; exact hst⟩⟩
    · rw [g2, handleAnswer_sealed c lib lib' user default hiv _ (hp j w1.state)]
      refine ⟨_, _, rfl, hlink _ _, .inr (.inr ⟨by rw [hstate], ?_⟩)⟩
      show w'.state = _
      rw [hw']
      exact g1.trans (by rw [hstate])
  · have hst : w'.state = s.world.state ∨ w'.state = (p.run j s.world.state).2 := by
      rw [hw']
      rcases hdev with ⟨g1, -⟩ | ⟨g1, -⟩
      · exact .inl (g1.trans hstate)
      · exact .inr (g1.trans (by rw [hstate]))
    cases o with
    | error e =>
      rcases hst with hst | hst
      · exact ⟨_, _, rfl, hlink _ _, .inl ⟨e, rfl, hst⟩⟩
      · exact ⟨_, _, rfl, hlink _ _, .inr (.inl ⟨e, rfl, hst⟩)⟩
    | ok r =>
      obtain ⟨e, s', k1, k2, k3⟩ := herr r (hnot r ho) (s.log ++ [.post .request (.token t) (.passthrough ct) s.sessionCookie (.ok r)])
      rcases hst with hst | hst
      · exact ⟨_, s', k1, k2, .inl ⟨e, rfl, by rw [k3]; exact hst⟩⟩
      · exact ⟨_, s', k1, k2, .inr (.inl ⟨e, rfl, by rw [k3]; exact hst⟩)⟩

/-- **C78, one request.** -/
theorem send_step (hx : x.Fair) (hp : ∀ j a, JsonText.Proper (p.run j a).1) (j : Json) (hj : JsonText.Proper j) (s : St (World α)) (hg : Good s) :
    ∃ res s', Aes.send c (network c owner lib' p x) (config lib user default) (utf8 (JsonText.dumps lib j)) s = (res, s') ∧
      Good s' ∧ ((∃ e, res = .error e ∧ s'.world.state = s.world.state) ∨
        (∃ e, res = .error e ∧ s'.world.state = (p.run j s.world.state).2) ∨
        (res = .ok (p.run j s.world.state).1 ∧ s'.world.state = (p.run j s.world.state).2)) := by
  unfold Aes.send
  simp only [bind_apply, modify_apply]
  obtain ⟨r, s1, h1, h2, ⟨e, rfl, h3⟩ | ⟨rfl, h3, h4, h5⟩⟩ := ensureHandshake_step c owner lib' p x hx ({ s with log := s.log ++ [.call] } : St (World α)) hg
  · rw [h1]; exact ⟨_, _, rfl, h3, .inl ⟨e, rfl, h2⟩⟩
  · rw [h1]
    simp only
    obtain ⟨r, s2, k1, k2, ⟨e, rfl, k3⟩ | ⟨rfl, k3, k4, k5, k6⟩⟩ := ensureLogin_step c owner lib lib' p x user default hx s1 h3 h4 h5
    · rw [k1]; exact ⟨_, _, rfl, k3, .inl ⟨e, rfl, k2.trans h2⟩⟩
    · rw [k1]
      simp only
      have hst : s2.world.state = s.world.state := k2.trans h2
      have := request_step c owner lib lib' p x user default hx hp j hj s2 k3 k5 k6
      rw [hst] at this
      exact this

theorem good_new (w : World α) : Good ({ world := w } : St (World α)) := fun h => absurd rfl h

theorem good_reset (s : St (World α)) : Good (reset s).2 := fun h => absurd rfl h

/-- **C78, over time.** Requests sent one after the other over an AES transport, with resets anywhere in between, whatever
happens on the network, to the device's session, to logins, clock and cookies: answered requests were carried out exactly once, with
the answer of the device; failed ones at most once. -/
theorem C78_aes_once (hx : x.Fair) (hp : ∀ j a, JsonText.Proper (p.run j a).1) (w : World α)
    (ops : List Op) (hops : ∀ j, .send j ∈ ops → JsonText.Proper j) :
    Once p w.state (history c (network c owner lib' p x) (config lib user default) ops { world := w }).1
      (history c (network c owner lib' p x) (config lib user default) ops { world := w }).2.world.state := by
  have key : ∀ (ops : List Op) (s : St (World α)), Good s → (∀ j, .send j ∈ ops → JsonText.Proper j) →
      Once p s.world.state (history c (network c owner lib' p x) (config lib user default) ops s).1
        (history c (network c owner lib' p x) (config lib user default) ops s).2.world.state := by
    intro ops
    induction ops with
    | nil => intro s _ _; exact .nil _
    | cons op ops ih =>
      intro s hg hops
      cases op with
      | reset => exact ih (reset s).2 (good_reset s) fun j hj => hops j (.tail _ hj)
      | send j =>
        obtain ⟨res, s', h1, h2, h3⟩ := send_step c owner lib lib' p x user default hx hp j (hops j (.head _)) s hg
        have := ih s' h2 fun j hj => hops j (.tail _ hj)
        have h1 : Aes.send c (network c owner lib' p x) (config lib user default) ((config lib user default).dumps j) s = (res, s') := h1
        simp only [history, h1]
        rcases h3 with ⟨e, rfl, he⟩ | ⟨e, rfl, he⟩ | ⟨rfl, he⟩
        · rw [he] at this; exact .failed this
        · rw [he] at this; exact .unanswered this
        · rw [he] at this; exact .answered this
  exact key ops { world := w } (good_new w) hops

/-! ## SMART queries -/

variable (uuid : String) (time : Nat → Int)

theorem faithful (hx : x.Fair) (hp : ∀ j a, JsonText.Proper (p.run j a).1) :
    Faithful (aesTransport c (network c owner lib' p x) (config lib user default) uuid time) p uuid Good (fun s => s.world.state) := by
  constructor
  · intro w hw s hg
    obtain ⟨res, s', h1, h2, h3⟩ := send_step c owner lib lib' p x user default hx hp _ (proper_wire uuid (time s.world.count) w hw) s hg
    exact ⟨_, res, s', message_wire uuid _ w, h1, h2, h3⟩
  · intro s _
    exact ⟨good_reset s, rfl⟩

/-- **C78, queries.** Queries on a new protocol object with an AES transport, with whatever requests, batches, pages, missing
answers and retries they lead to, over whatever network: of the messages sent, those that were answered were carried out
exactly once, and the others at most once, in the order in which they were sent. -/
theorem C78_queries_once (hx : x.Fair) (hp : ∀ j a, JsonText.Proper (p.run j a).1) (n : Nat) (w : World α)
    (qs : List (Smart.Query × Int)) (hq : ∀ q ∈ qs, ProperQuery q.1) :
    ∃ trace, Sent uuid (queries (aesTransport c (network c owner lib' p x) (config lib user default) uuid time) qs (fresh n w)).wire (trace.map Prod.fst) ∧
      Once p w.state trace (queries (aesTransport c (network c owner lib' p x) (config lib user default) uuid time) qs (fresh n w)).world.world.state :=
  (faithful c owner lib lib' p x user default uuid time hx hp).queries_once (fresh n w) (good_new w) rfl qs hq

/-- **C78, results.** When a query returns, after whatever failures and retries, its result has an entry for every method and
nothing else, and each entry is what the device answers to that method. -/
theorem C78_query_result (hx : x.Fair) (hp : ∀ j a, JsonText.Proper (p.run j a).1)
    {ans : Smart.Request → SmartSpec.Answer} (hans : Speaks p uuid ans) (hu : SmartSpec.Unpaged ans) (requests : Dict String Json)
    (hwf : Dict.WF requests) (hq : ProperQuery (.dict requests)) (hlen : requests.length ≠ 1) (before : List (Smart.Query × Int))
    (hbefore : ∀ q ∈ before, ProperQuery q.1) (rc : Int) (n : Nat) (hn : n ≠ 1) (w : World α) (r : Dict String Smart.Entry)
    (hr : (Smart.query (aesTransport c (network c owner lib' p x) (config lib user default) uuid time) (.dict requests) rc
      (queries (aesTransport c (network c owner lib' p x) (config lib user default) uuid time) before (fresh n w))).1 = .ok r) :
    (∀ m, m ∈ r.keys ↔ m ∈ requests.keys) ∧
      ∀ m q, (m, q) ∈ requests → Dict.get? r m = some (SmartSpec.entryFor (ans (SmartSpec.requestFor m q))) :=
  (faithful c owner lib lib' p x user default uuid time hx hp).query_result hans hu requests hwf hq hlen before hbefore rc (fresh n w)
    (good_new w) hn r hr

/-- **C78, setters.** A query that sets something on the device, sent again after failures as often as it takes: when it
returns, the device is in the state asked for; when it raises, the device is in that state or as it was. -/
theorem C78_setter (hx : x.Fair) (hp : ∀ j a, JsonText.Proper (p.run j a).1) (m : String) (q : Json)
    (hq : JsonText.Proper q) {f : α → α} {v : Json} (hset : Sets p uuid (SmartSpec.requestFor m q) f v) (before : List (Smart.Query × Int))
    (hbefore : ∀ q ∈ before, ProperQuery q.1) (rc : Int) (n : Nat) (w : World α) :
    let t := aesTransport c (network c owner lib' p x) (config lib user default) uuid time
    let s := queries t before (fresh n w)
    let out := Smart.query t (.dict [(m, q)]) rc s
    (∀ r, out.1 = .ok r → r = [(m, .value v)] ∧ out.2.world.world.state = f s.world.world.state) ∧
      ∀ e, out.1 = .error e → out.2.world.world.state = s.world.world.state ∨ out.2.world.world.state = f s.world.world.state :=
  (faithful c owner lib lib' p x user default uuid time hx hp).setter m q hq hset before hbefore rc (fresh n w) (good_new w)

end

/-! ## When nothing goes wrong -/

section
variable {α : Type} (c : BlockCipher) (owner : Json) (lib lib' : JsonText.Lib) (p : Program α)
variable (x : Chance) (user default : Json) {M : Nat}

theorem exchange_calm (hc : x.CalmFrom M) (url : Url) (body : Body) (w : World α) (hw : M ≤ w.count) :
    exchange c owner lib p x url body w =
      (.ok (handle c owner lib p x url body w).1, { (handle c owner lib p x url body w).2 with count := w.count + 1 }) := by
  unfold exchange
  simp only [hc.restart _ hw, hc.fate _ hw, Bool.false_eq_true, if_false]

/-- Transport and device use the same key. -/
def Paired (s : St (World α)) : Prop := ∃ ses, s.session = some ses ∧ ses.iv.length = 16 ∧ s.world.session = some ses

/-- Transport and device use the same token. -/
def Admitted (s : St (World α)) : Prop := ∃ t, s.token = some t ∧ s.world.token = some t

def Steady (M : Nat) (s : St (World α)) : Prop :=
  M ≤ s.world.count ∧ (s.phase ≠ .handshakeRequired → s.expireAt ≠ none → Paired s ∧ (s.phase = .established → Admitted s))

theorem handshake_calm (hc : x.CalmFrom M) (s : St (World α)) (hM : M ≤ s.world.count) :
    ∃ s', performHandshake (network c owner lib p x) s = (.ok (), s') ∧ s'.phase = .loginRequired ∧ s'.expireAt ≠ none ∧ Paired s' ∧
      M ≤ s'.world.count ∧ s'.world.state = s.world.state := by
  have htimeout : ∀ k, M ≤ k → ∃ n, timeoutOf (network c owner lib p x) (x.cookie k "TIMEOUT") = .ok n := by
    intro k hk
    unfold timeoutOf
    cases hv : x.cookie k "TIMEOUT" with
    | none => exact ⟨_, rfl⟩
    | some v =>
      simp only
      by_cases hv' : v = ""
      · rw [if_pos hv']; exact ⟨_, rfl⟩
      · rw [if_neg hv']
        obtain ⟨n, hn⟩ := Option.isSome_iff_exists.1 ((hc.lifetime k hk v hv).resolve_left hv')
        exact ⟨n, by show (match x.int v with | some n => _ | none => _) = _; rw [hn]⟩
  unfold performHandshake
  simp only [bind_apply, modify_apply, post]
  have henv : ∀ w : World α, (network c owner lib p x).post .app .handshake none w = exchange c owner lib p x .app .handshake w := fun _ => rfl
  simp only [henv, exchange_calm c owner lib p x hc _ _ _ hM, handle]
  have hkey := hc.key s.world.count hM
  generalize x.key s.world.count = ses at hkey ⊢
  unfold finishHandshake
  rw [if_neg (by simp), bind_apply]
  have h1 : ∀ s : St (World α), handleCode (.obj [("error_code", .num 0), ("result", .obj [("key", x.lock (ses.key ++ ses.iv))])]) s = (.ok (), s) := fun _ => rfl
  have h2 : resultOf (.obj [("error_code", .num 0), ("result", .obj [("key", x.lock (ses.key ++ ses.iv))])]) "key" = .ok (x.lock (ses.key ++ ses.iv)) := rfl
  simp only [h1, h2, bind_apply, lift_apply]
  generalize hs1 : ({ s with token := none, expireAt := none, sessionCookie := none, world := _, log := _ } : St (World α)) = s1
  have hw1 : s1.world.session = some ses := by rw [← hs1]
  have hw2 : M ≤ s1.world.count ∧ s1.world.state = s.world.state := by rw [← hs1]; exact ⟨Nat.le_succ_of_le hM, rfl⟩
  obtain ⟨ck, evs, h3, -⟩ := takeCookie_spec (network c owner lib p x) s1
  rw [h3]
  simp only [getCookie_apply]
  obtain ⟨n, hn⟩ := htimeout s1.world.count hw2.1
  have hn' : timeoutOf (network c owner lib p x) ((network c owner lib p x).cookie "TIMEOUT" s1.world) = .ok n := hn
  simp only [hn', now, modify_apply, openKey]
  have hlen : (ses.key ++ ses.iv).length = 32 := by rw [List.length_append, hkey.1, hkey.2]
  have hmake : ((network c owner lib p x).openKey (x.lock (ses.key ++ ses.iv)) ((network c owner lib p x).now s1.world).2).bind Session.make = some ses := by
    show (x.unlock _).bind Session.make = _
    rw [hc.unlock _ hlen]
    show Session.make _ = _
    unfold Session.make
    rw [if_pos hlen, List.take_left' hkey.1, List.drop_left' hkey.1]
  simp only [hmake]
  exact ⟨_, rfl, rfl, by simp, ⟨ses, rfl, hkey.2, hw1⟩, Nat.le_succ_of_le hw2.1, hw2.2⟩

theorem proper_login {params : Json} (hp : JsonText.Proper params) :
    JsonText.Proper (.obj [("method", .str "login_device"), ("params", params)]) := by
  simp [JsonText.Proper, JsonText.ProperKvs, Dict.WF, Dict.keys, hp]

/-- A passthrough request with the key of the device. -/
theorem passthrough_calm (hc : x.CalmFrom M) (what : What) (j : Json) (s : St (World α)) (hM : M ≤ s.world.count) {ses : Session}
    (hses : s.session = some ses) (hiv : ses.iv.length = 16) {v : Json} (hv : JsonText.Proper v) {w' : World α}
    (hh : handle c owner lib' p x (targetUrl s) (.passthrough (Crypto.encrypt c ses.key ses.iv (utf8 (JsonText.dumps lib j)))) s.world =
      (sealed c lib' ses v, w')) :
    ∃ log, securePassthrough c (network c owner lib' p x) (config lib user default) what (utf8 (JsonText.dumps lib j)) s =
      (.ok v, { s with world := { w' with count := s.world.count + 1 }, log := log }) := by
  unfold securePassthrough
  have hcur : currentSession s = (.ok ses, s) := by unfold currentSession; rw [hses]
  simp only [bind_apply, hcur, get_apply, post]
  have henv : ∀ url ct ck w, (network c owner lib' p x).post url (.passthrough ct) ck w = exchange c owner lib' p x url (.passthrough ct) w :=
    fun _ _ _ _ => rfl
  simp only [henv, exchange_calm c owner lib' p x hc _ _ _ hM, hh]
  rw [handleAnswer_sealed c lib lib' user default hiv v hv]
  exact ⟨_, rfl⟩

/-- A login with the credentials of the owner. -/
theorem login_calm (hc : x.CalmFrom M) (howner : JsonText.Proper owner) (s : St (World α)) (hM : M ≤ s.world.count) (hp : Paired s) (hphase : s.phase ≠ .established)
    (he : s.expireAt ≠ none) : ∃ s', tryLogin c (network c owner lib' p x) (config lib user default) owner s = (.ok (), s') ∧ Paired s' ∧
      s'.phase = .established ∧ Admitted s' ∧ s'.expireAt ≠ none ∧ M ≤ s'.world.count ∧ s'.world.state = s.world.state := by
  obtain ⟨ses, hses, hiv, hw⟩ := hp
  have hurl : targetUrl s = .app := by
    unfold targetUrl
    cases hp : s.phase with
    | established => exact absurd hp hphase
    | handshakeRequired => rfl
    | loginRequired => rfl
  obtain ⟨log, h⟩ := passthrough_calm c owner lib lib' p x user default hc .login (.obj [("method", .str "login_device"), ("params", owner)])
    s hM hses hiv (v := .obj [("error_code", .num 0), ("result", .obj [("token", x.token s.world.count)])])
    (by simp [JsonText.Proper, JsonText.ProperKvs, Dict.WF, Dict.keys, hc.token _ hM])
    (w' := { s.world with token := some (x.token s.world.count) }) (by
      rw [hurl]
      simp only [handle, hw, Crypto.decrypt_encrypt c _ _ _ hiv, Option.bind_some, fromUtf8_utf8, JsonText.C70_round_trip lib _ (proper_login howner)]
      rw [if_pos ⟨rfl, rfl⟩])
  unfold tryLogin
  have h' : securePassthrough c (network c owner lib' p x) (config lib user default) .login (loginRequest (config lib user default) owner) s = _ := h
  have h2 : ∀ s1 : St (World α), handleCode (.obj [("error_code", .num 0), ("result", .obj [("token", x.token s.world.count)])]) s1 = (.ok (), s1) := fun _ => rfl
  have h3 : resultOf (.obj [("error_code", .num 0), ("result", .obj [("token", x.token s.world.count)])]) "token" = .ok (x.token s.world.count) := rfl
  simp only [bind_apply, h', h2, h3, lift_apply, modify_apply]
  exact ⟨_, rfl, ⟨ses, hses, hiv, hw⟩, rfl, ⟨_, rfl, rfl⟩, he, Nat.le_succ_of_le hM, rfl⟩

/-- A login with other credentials. -/
theorem login_denied (hc : x.CalmFrom M) (hd : ∀ n, JsonText.Proper (x.denial n) ∧ (x.denial n).get? "error_code" = some (.num Codes.loginError))
    (params : Json) (hparams : JsonText.Proper params) (hne : params ≠ owner) (s : St (World α)) (hM : M ≤ s.world.count)
    (hp : Paired s) (hphase : s.phase ≠ .established) :
    ∃ s', tryLogin c (network c owner lib' p x) (config lib user default) params s = (.error (.auth (some Codes.loginError)), s') ∧
      M ≤ s'.world.count ∧ s'.world.state = s.world.state := by
  obtain ⟨ses, hses, hiv, hw⟩ := hp
  have hurl : targetUrl s = .app := by
    unfold targetUrl
    cases hp : s.phase with
    | established => exact absurd hp hphase
    | handshakeRequired => rfl
    | loginRequired => rfl
  obtain ⟨log, h⟩ := passthrough_calm c owner lib lib' p x user default hc .login (.obj [("method", .str "login_device"), ("params", params)])
    s hM hses hiv (hd s.world.count).1 (w' := s.world) (by
      rw [hurl]
      simp only [handle, hw, Crypto.decrypt_encrypt c _ _ _ hiv, Option.bind_some, fromUtf8_utf8, JsonText.C70_round_trip lib _ (proper_login hparams)]
      rw [if_neg (fun h => hne (Option.some.inj h.2))])
  unfold tryLogin
  have h' : securePassthrough c (network c owner lib' p x) (config lib user default) .login (loginRequest (config lib user default) params) s = _ := h
  simp only [bind_apply, h']
  have hd' := (hd s.world.count).2
  cases hj : x.denial s.world.count with
  | obj kvs =>
    rw [hj] at hd'
    have hk : Dict.get? kvs "error_code" = some (.num Codes.loginError) := hd'
    unfold handleCode
    simp only [hk]
    exact ⟨_, rfl, Nat.le_succ_of_le hM, rfl⟩
  | _ => rw [hj] at hd'; cases hd'

/-- The device knows the user's credentials, or denies them as wrong and knows the default credentials. -/
theorem performLogin_calm (hc : x.CalmFrom M) (ho : x.Recognises owner user default) (s : St (World α)) (hM : M ≤ s.world.count) (hp : Paired s) (hphase : s.phase ≠ .established)
    (he : s.expireAt ≠ none) : ∃ s', performLogin c (network c owner lib' p x) (config lib user default) s = (.ok (), s') ∧ Paired s' ∧
      s'.phase = .established ∧ Admitted s' ∧ s'.expireAt ≠ none ∧ M ≤ s'.world.count ∧ s'.world.state = s.world.state := by
  unfold performLogin
  have hu : (config lib user default).loginParams = user := rfl
  have hd : (config lib user default).defaultParams = default := rfl
  rw [hu, hd]
  by_cases heq : user = owner
  · obtain ⟨s', h1, h2⟩ := login_calm c owner lib lib' p x user default hc ho.proper s hM hp hphase he
    rw [← heq] at h1
    rw [tryExcept_ok (by rw [← heq]; exact h1)]
    exact ⟨s', rfl, h2⟩
  · obtain ⟨hdef, hpu, hden⟩ := ho.or heq
    obtain ⟨s1, h1, h2, h3⟩ := login_denied c owner lib lib' p x user default hc hden user hpu heq s hM hp hphase
    rw [tryExcept_error h1]
    obtain ⟨s2, g1, g2, g3, g4, g5, g6⟩ := handshake_calm c owner lib' p x hc s1 h2
    obtain ⟨s3, k1, k2, k3, k4, k5, k6, k7⟩ := login_calm c owner lib lib' p x user default hc ho.proper s2 g5 g4 (by rw [g2]; simp) g3
    simp only [ne_eq, not_true, if_false]
    rw [tryExcept_ok (s' := s3) (a := ()) (by rw [bind_apply, g1, hdef]; exact k1)]
    exact ⟨s3, rfl, k2, k3, k4, k5, k6, k7.trans (g6.trans h3)⟩

/-- What a request starts with: a handshake, or nothing. -/
theorem ensureHandshake_calm (hc : x.CalmFrom M) (s : St (World α)) (hM : M ≤ s.world.count) :
    ∃ s', ensureHandshake (network c owner lib' p x) s = (.ok (), s') ∧ M ≤ s'.world.count ∧ s'.world.state = s.world.state ∧
      s'.expireAt ≠ none ∧ (s'.phase = .loginRequired ∧ Paired s' ∨ s.phase ≠ .handshakeRequired ∧ s.expireAt ≠ none ∧ s'.phase = s.phase ∧
        s'.session = s.session ∧ s'.token = s.token ∧ s'.world.session = s.world.session ∧ s'.world.token = s.world.token) := by
  have hshake : ∀ s0 : St (World α), M ≤ s0.world.count → s0.world.state = s.world.state →
      ∃ s', performHandshake (network c owner lib' p x) s0 = (.ok (), s') ∧ M ≤ s'.world.count ∧ s'.world.state = s.world.state ∧
      s'.expireAt ≠ none ∧ (s'.phase = .loginRequired ∧ Paired s' ∨ s.phase ≠ .handshakeRequired ∧ s.expireAt ≠ none ∧ s'.phase = s.phase ∧
        s'.session = s.session ∧ s'.token = s.token ∧ s'.world.session = s.world.session ∧ s'.world.token = s.world.token) := by
    intro s0 hM he
    obtain ⟨s1, h1, h2, h3, h4, h5, h6⟩ := handshake_calm c owner lib' p x hc s0 hM
    exact ⟨s1, h1, h5, h6.trans he, h3, .inl ⟨h2, h4⟩⟩
  unfold ensureHandshake needsHandshake sessionExpired
  simp only [bind_apply, get_apply]
  by_cases hphase : s.phase = .handshakeRequired
  · rw [if_pos hphase]
    simp only [pure_apply, if_true]
    exact hshake s hM rfl
  · rw [if_neg hphase]
    simp only [bind_apply, get_apply]
    cases hexp : s.expireAt with
    | none =>
      simp only [pure_apply, if_true]
      rw [hexp] at hshake
      exact hshake s hM rfl
    | some t =>
      simp only [bind_apply, now, network, pure_apply]
      split
      · rw [hexp] at hshake
        exact hshake { s with world := { s.world with count := s.world.count + 1 }, log := s.log ++ [.clock (x.clock s.world.count)] }
          (Nat.le_succ_of_le hM) rfl
      · exact ⟨_, rfl, Nat.le_succ_of_le hM, rfl, by rw [hexp]; simp, .inr ⟨hphase, by simp, rfl, rfl, rfl, rfl, rfl⟩⟩

/-- The end of a request on a transport that is logged in. -/
theorem established_calm (hc : x.CalmFrom M) (hp : ∀ j a, JsonText.Proper (p.run j a).1) (j : Json) (hj : JsonText.Proper j) (s : St (World α))
    (hM : M ≤ s.world.count) (h1 : Paired s) (h2 : s.phase = .established) (h3 : Admitted s) :
    ∃ s', securePassthrough c (network c owner lib' p x) (config lib user default) .request (utf8 (JsonText.dumps lib j)) s =
        (.ok (p.run j s.world.state).1, s') ∧ Steady M s' ∧ s'.world.state = (p.run j s.world.state).2 := by
  obtain ⟨ses, hses, hiv, hw⟩ := h1
  obtain ⟨t, ht, htw⟩ := h3
  have hurl : targetUrl s = .token t := by unfold targetUrl; rw [h2, ht]
  obtain ⟨log, h⟩ := passthrough_calm c owner lib lib' p x user default hc .request j s hM hses hiv (hp j s.world.state)
    (w' := { s.world with state := (p.run j s.world.state).2 }) (by
      rw [hurl]
      simp only [handle, hw, Crypto.decrypt_encrypt c _ _ _ hiv, Option.bind_some, fromUtf8_utf8, JsonText.C70_round_trip lib j hj]
      rw [if_pos htw])
  rw [h]
  exact ⟨_, rfl, ⟨Nat.le_succ_of_le hM, fun _ _ => ⟨⟨ses, hses, hiv, hw⟩, fun _ => ⟨t, ht, htw⟩⟩⟩, rfl⟩

/-- The login of a request, if there is one. -/
theorem ensureLogin_calm (hc : x.CalmFrom M) (ho : x.Recognises owner user default) (s : St (World α)) (hM : M ≤ s.world.count) (h1 : Paired s)
    (h2 : s.expireAt ≠ none) (h3 : s.phase = .established → Admitted s) :
    ∃ s', ensureLogin c (network c owner lib' p x) (config lib user default) s = (.ok (), s') ∧ M ≤ s'.world.count ∧
      s'.world.state = s.world.state ∧ Paired s' ∧ s'.phase = .established ∧ Admitted s' := by
  unfold ensureLogin
  simp only [bind_apply, get_apply]
  by_cases hphase : s.phase = .established
  · rw [if_neg (by simp [hphase])]
    exact ⟨_, rfl, hM, rfl, h1, hphase, h3 hphase⟩
  · rw [if_pos hphase]
    obtain ⟨s', k1, k2, k3, k4, -, k6, k7⟩ := performLogin_calm c owner lib lib' p x user default hc ho s hM h1 hphase h2
    rw [tryExcept_ok k1]
    exact ⟨_, rfl, k6, k7, k2, k3, k4⟩

theorem send_calm (hc : x.CalmFrom M) (ho : x.Recognises owner user default) (hp : ∀ j a, JsonText.Proper (p.run j a).1) (j : Json)
    (hj : JsonText.Proper j) (s : St (World α)) (hs : Steady M s) :
    ∃ s', Aes.send c (network c owner lib' p x) (config lib user default) (utf8 (JsonText.dumps lib j)) s =
        (.ok (p.run j s.world.state).1, s') ∧ Steady M s' ∧ s'.world.state = (p.run j s.world.state).2 := by
  unfold Aes.send
  simp only [bind_apply, modify_apply]
  obtain ⟨s1, h1, h2, h3, h4, h5⟩ := ensureHandshake_calm c owner lib' p x hc ({ s with log := s.log ++ [.call] } : St (World α)) hs.1
  rw [h1]
  simp only
  have hcur : Paired s1 ∧ (s1.phase = .established → Admitted s1) := by
    rcases h5 with ⟨g1, g2⟩ | ⟨g1, g2, g3, g4, g5, g6, g7⟩
    · exact ⟨g2, fun h => by rw [g1] at h; cases h⟩
    · obtain ⟨k1, k2⟩ := hs.2 g1 g2
      unfold Paired Admitted at *
      rw [g3, g4, g5, g6, g7]
      exact ⟨k1, k2⟩
  obtain ⟨s2, k1, k2, k3, k4, k5, k6⟩ := ensureLogin_calm c owner lib lib' p x user default hc ho s1 h2 hcur.1 h4 hcur.2
  rw [k1]
  simp only
  have hst : s.world.state = s2.world.state := (k3.trans h3).symm
  rw [hst]
  exact established_calm c owner lib lib' p x user default hc hp j hj s2 k2 k4 k5 k6

/-- **C78, without failures.** When the network works, the device is not restarted, and it knows the user's credentials, or those it was
delivered with, then every request is answered, however many handshakes and logins expired sessions and resets make necessary. -/
theorem C78_aes_reliable (w : World α) (hc : x.CalmFrom w.count) (ho : x.Recognises owner user default) (hp : ∀ j a, JsonText.Proper (p.run j a).1) (ops : List Op)
    (hops : ∀ j, .send j ∈ ops → JsonText.Proper j) :
    ∀ o ∈ (history c (network c owner lib' p x) (config lib user default) ops { world := w }).1, ∃ v, o.2 = .ok v := by
  have key : ∀ (ops : List Op) (s : St (World α)), Steady w.count s → (∀ j, .send j ∈ ops → JsonText.Proper j) →
      ∀ o ∈ (history c (network c owner lib' p x) (config lib user default) ops s).1, ∃ v, o.2 = .ok v := by
    intro ops
    induction ops with
    | nil => intro s _ _ o ho; cases ho
    | cons op ops ih =>
      intro s hs hops
      cases op with
      | reset => exact ih (reset s).2 ⟨hs.1, fun h => absurd rfl h⟩ fun j hj => hops j (.tail _ hj)
      | send j =>
        obtain ⟨s', h1, h2, -⟩ := send_calm c owner lib lib' p x user default hc ho hp j (hops j (.head _)) s hs
        have h1 : Aes.send c (network c owner lib' p x) (config lib user default) ((config lib user default).dumps j) s = _ := h1
        simp only [history, h1]
        intro o ho
        rcases List.mem_cons.1 ho with rfl | ho
        · exact ⟨_, rfl⟩
        · exact ih s' h2 (fun j hj => hops j (.tail _ hj)) o ho
  exact key ops { world := w } ⟨Nat.le_refl _, fun h => absurd rfl h⟩ hops

/-- **C78, setters without failures.** Under the same conditions, and whatever was asked before, a query that sets something returns and has set it. -/
theorem C78_setter_works (w : World α) (hx : x.Fair) (hc : x.CalmFrom w.count) (ho : x.Recognises owner user default) (hp : ∀ j a, JsonText.Proper (p.run j a).1)
    (uuid : String) (time : Nat → Int) (m : String) (q : Json) (hq : JsonText.Proper q) {f : α → α} {v : Json}
    (hset : Sets p uuid (SmartSpec.requestFor m q) f v) (before : List (Smart.Query × Int)) (hbefore : ∀ q ∈ before, ProperQuery q.1) (rc n : Nat) :
    let t := aesTransport c (network c owner lib' p x) (config lib user default) uuid time
    let s := queries t before (fresh n w)
    let out := Smart.query t (.dict [(m, q)]) rc s
    out.1 = .ok [(m, .value v)] ∧ out.2.world.world.state = f s.world.world.state := by
  intro t s out
  have F : Faithful t p uuid (fun s => Good s ∧ Steady w.count s) (fun s => s.world.state) := by
    constructor
    · rintro wr hw s ⟨hg, hs⟩
      obtain ⟨res, s', h1, h2, h3⟩ := send_step c owner lib lib' p x user default hx hp _ (proper_wire uuid (time s.world.count) wr hw) s hg
      obtain ⟨s'', k1, k2, -⟩ := send_calm c owner lib lib' p x user default hc ho hp _ (proper_wire uuid (time s.world.count) wr hw) s hs
      rw [h1] at k1
      cases k1
      exact ⟨_, _, s', message_wire uuid _ wr, h1, ⟨h2, k2⟩, h3⟩
    · intro s hs
      exact ⟨⟨good_reset s, hs.2.1, fun h => absurd rfl h⟩, rfl⟩
  obtain ⟨hg, hs⟩ : Good s.world ∧ Steady w.count s.world := (F.queries_explains before (fresh n w) hbefore ⟨good_new w, Nat.le_refl _, fun h => absurd rfl h⟩).1
  have hw : Smart.WireAll JsonText.Proper (.single (Smart.mkRequest m q)) := Smart.mkRequest_wireAll hq
  obtain ⟨res, s', h1, h2, h3⟩ := send_step c owner lib lib' p x user default hx hp _ (proper_wire uuid (time s.world.world.count) _ hw) s.world hg
  obtain ⟨s'', k1, k2, -⟩ := send_calm c owner lib lib' p x user default hc ho hp _ (proper_wire uuid (time s.world.world.count) _ hw) s.world hs
  rw [h1] at k1
  cases k1
  rcases h3 with ⟨e, he, -⟩ | ⟨e, he, -⟩ | ⟨he, -⟩
  · cases he
  · cases he
  · rw [Except.ok.inj he] at h1
    have hout : out.1 = .ok [(m, .value v)] := by
      rw [show out = _ from setter_works m q hset rc s (message_wire uuid _ _) h1]
    exact ⟨hout, ((C78_setter c owner lib lib' p x user default uuid time hx hp m q hq hset before hbefore rc n w).1 _ hout).2⟩

end

/-! ## Examples -/

/-- The answer to the second request does not arrive, and the device restarts before the third. -/
def sampleChance : Chance where
  fate n := if n = 5 then .unanswered (.error .timeout) else .fine
  restart n := n = 7
  key n := ⟨List.replicate 16 n.toUInt8, List.replicate 16 7⟩
  token n := .num n
  refusal _ := (200, .obj [("error_code", .num (-1005))])
  denial _ := .obj [("error_code", .num (-1501))]
  clock n := n
  cookie _ _ := none
  int _ := none
  lock b := .arr (b.map fun v => .num v.toNat)
  unlock j := match j with | .arr l => some (l.map fun v => match v with | .num n => n.toNat.toUInt8 | _ => 0) | _ => none

theorem unlock_lock (b : Bytes) : sampleChance.unlock (sampleChance.lock b) = some b := by
  simp only [sampleChance, List.map_map, Option.some.injEq]
  refine (List.map_congr_left fun v _ => ?_).trans (List.map_id b)
  exact UInt8.ofNat_toNat

theorem sampleChance_fair : sampleChance.Fair := by
  refine ⟨fun n => ?_, fun n => ⟨rfl, rfl⟩, fun n _ => rfl, fun b _ => unlock_lock b⟩
  unfold sampleChance
  simp only
  split
  · intro b hb; cases hb
  · trivial

def sampleWorld : World Nat := ⟨none, none, 0, 0⟩

abbrev sampleNetwork (owner : String) (x : Chance) : Env (World Nat) := network Crypto.toyCipher (.str owner) .orjson counter x

abbrev sampleConfig : Config := config .python (.str "user") (.str "default")

def sampleOps : List Op := [.send (.str "a"), .send (.str "b"), .send (.str "c"), .send (.str "d"), .reset, .send (.str "e")]

/-- Five requests: the second was carried out but not answered, the third was not carried out. -/
example : ((history Crypto.toyCipher (sampleNetwork "user" sampleChance) sampleConfig sampleOps { world := sampleWorld }).1.map
      fun o => o.2.toOption.bind fun v => v.get? "result") = [some (.num 0), none, none, some (.num 2), some (.num 3)] ∧
    (history Crypto.toyCipher (sampleNetwork "user" sampleChance) sampleConfig sampleOps { world := sampleWorld }).2.world.state = 4 := by
  decide +kernel

theorem sampleOps_proper (j : Json) (hj : .send j ∈ sampleOps) : JsonText.Proper j := by
  simp only [sampleOps, List.mem_cons, Op.send.injEq, List.not_mem_nil, or_false, reduceCtorEq, false_or] at hj
  rcases hj with rfl | rfl | rfl | rfl | rfl <;> simp [JsonText.Proper]

example :=
  C78_aes_once Crypto.toyCipher (.str "user") .python .orjson counter sampleChance (.str "user") (.str "default") sampleChance_fair counter_proper sampleWorld sampleOps sampleOps_proper

/-- The same without failures. -/
def calmChance : Chance := { sampleChance with fate := fun _ => .fine, restart := fun _ => false }

theorem calmChance_calm (m : Nat) : calmChance.CalmFrom m :=
  ⟨fun _ _ => rfl, fun _ _ => rfl, fun _ _ => ⟨rfl, rfl⟩, fun n _ => by simp [calmChance, sampleChance, JsonText.Proper], fun k _ v hv => (nomatch hv),
    fun b _ => unlock_lock b⟩

theorem calmChance_recognises : calmChance.Recognises (.str "default") (.str "user") (.str "default") :=
  ⟨by simp [JsonText.Proper], fun _ => ⟨rfl, by simp [JsonText.Proper], fun n =>
    ⟨by simp [calmChance, sampleChance, JsonText.Proper, JsonText.ProperKvs, Dict.WF, Dict.keys], rfl⟩⟩⟩

example : ∀ o ∈ (history Crypto.toyCipher (sampleNetwork "default" calmChance) sampleConfig sampleOps { world := sampleWorld }).1, ∃ v, o.2 = .ok v :=
  C78_aes_reliable Crypto.toyCipher _ .python .orjson counter calmChance _ _ sampleWorld (calmChance_calm _) calmChance_recognises counter_proper sampleOps
    sampleOps_proper

example : ((history Crypto.toyCipher (sampleNetwork "default" calmChance) sampleConfig [.send (.str "a")] { world := sampleWorld }).1.map
      fun o => o.2.toOption.bind fun v => v.get? "result") = [some (.num 0)] := by
  decide +kernel

abbrev setterTransport (x : Chance) : Smart.Transport (St (World Json)) :=
  aesTransport Crypto.toyCipher (network Crypto.toyCipher (.str "user") .orjson setting x) sampleConfig "u" fun n => n

/-- A setter on a device that restarts and loses an answer. -/
example :=
  C78_setter Crypto.toyCipher (.str "user") .python .orjson setting sampleChance (.str "user") (.str "default") "u" (fun n => n) sampleChance_fair setting_proper
    "set" (.num 5) (by simp [JsonText.Proper]) (setting_sets (.num 5) rfl) [] (fun _ h => (nomatch h)) 3 5 ⟨none, none, .null, 0⟩

theorem calmChance_fair : calmChance.Fair := ⟨fun _ => trivial, sampleChance_fair.key, sampleChance_fair.refusal, sampleChance_fair.unlock⟩

example : (Smart.query (setterTransport calmChance) (.dict [("set", .num 5)]) 3 (fresh 5 ⟨none, none, .null, 0⟩)).1 = .ok [("set", .value (.obj []))] :=
  (C78_setter_works Crypto.toyCipher (.str "user") .python .orjson setting calmChance (.str "user") (.str "default") ⟨none, none, .null, 0⟩ calmChance_fair (calmChance_calm _)
    ⟨by simp [JsonText.Proper], fun h => absurd rfl h⟩ setting_proper "u" _ "set" (.num 5) (by simp [JsonText.Proper]) (setting_sets (.num 5) rfl) []
    (fun _ h => (nomatch h)) 3 5).1

end Kasa.AesEndToEnd
