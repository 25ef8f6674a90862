import Verif.Lemmas.Ssl
/-!
# C61: the HTTPS transport of robot vacuums
-/

namespace Kasa.Ssl
open PyM SslSpec

section
variable {σ : Type} (env : Env σ) (cfg : Config)

/-- C61: in every history of calls on one transport object, with any device, clock and failures, a request is only
posted if the caller asked for it, under the token of the last login that was not reset or refused by the device since;
and that login was made in this very call, or a clock reading in this call was less than a day minus 20 minutes after
it. -/
theorem C61_session (w : σ) (ops : List Op) (before after : List Ev) (url : Url) (text : Bytes)
    (outcome : Except HttpError (Int × Json))
    (hlog : (history env cfg w ops).log = before ++ .post url (.request text) outcome :: after) :
    RequestAllowed (fun m => .send m ∈ ops) (observe cfg before) url text :=
  (history_inv env cfg w ops).accepted _ _ _ _ _ hlog

/-- C61: a login carries the user's credentials, and is made only without a live session; or the default credentials,
after the device has said in this call that the user's are wrong. -/
theorem C61_login (w : σ) (ops : List Op) (before after : List Ev) (url : Url) (params : Json)
    (outcome : Except HttpError (Int × Json))
    (hlog : (history env cfg w ops).log = before ++ .post url (.login params) outcome :: after) :
    LoginAllowed cfg (observe cfg before) params :=
  (history_inv env cfg w ops).accepted _ _ _ _ _ hlog

/-- C61: what a call returns is the device's answer to the request of this call, and the device reported success. -/
theorem C61_answer (request : Bytes) (s s' : St σ) (resp : Json) (h : send env cfg request s = (.ok resp, s')) :
    successful resp = true ∧ ∃ before url, s'.log = before ++ [.post url (.request request) (.ok (200, resp))] := by
  unfold send at h
  obtain ⟨_, s1, _, h⟩ := bind_eq_ok h
  obtain ⟨_, s2, _, h⟩ := bind_eq_ok h
  unfold sendRequest at h
  obtain ⟨r, s3, hp, h⟩ := bind_eq_ok h
  unfold post at hp
  simp only [Prod.mk.injEq] at hp
  obtain ⟨hp1, rfl⟩ := hp
  cases ho : (env.post s2.url (.request request) s2.world).1 with
  | error e => rw [ho] at hp1; cases hp1
  | ok v =>
    rw [ho] at hp1
    cases hp1
    split at h
    · cases h
    · rename_i h200
      obtain ⟨_, s4, hc, h⟩ := bind_eq_ok h
      simp only [pure_apply, Prod.mk.injEq, Except.ok.injEq] at h
      obtain ⟨rfl, rfl⟩ := h
      rcases handleCode_spec r.2 _ with ⟨hs, h2⟩ | ⟨_, _, n, _, h2⟩ | ⟨_, _, e, h2, _⟩
      · rw [h2] at hc
        simp only [Prod.mk.injEq, true_and] at hc
        subst hc
        refine ⟨hs, s2.log, s2.url, ?_⟩
        have : r = (200, r.2) := by rw [← Decidable.of_not_not h200]
        rw [← this]
        simp only [ho]
      · rw [h2] at hc; cases hc
      · rw [h2] at hc; cases hc

/-- The event posts a caller's request. -/
def isRequest : Ev → Bool
  | .post _ (.request _) _ => true
  | _ => false

/-- The events of a step are appended to the log, at most `n` of them posting a request. -/
def Posts {α : Type} (n : Nat) (m : PyM (St σ) α) : Prop :=
  ∀ s, ∃ l, (m s).2.log = s.log ++ l ∧ l.countP isRequest ≤ n

theorem Posts.bind {α β : Type} {n k : Nat} {m : PyM (St σ) α} {f : α → PyM (St σ) β} (hm : Posts n m)
    (hf : ∀ a, Posts k (f a)) : Posts (n + k) (m >>= f) := by
  intro s
  obtain ⟨l, h1, h2⟩ := hm s
  rw [bind_apply]
  cases h : m s with
  | mk r s1 =>
    rw [h] at h1
    cases r with
    | error e => exact ⟨l, h1, by omega⟩
    | ok a =>
      obtain ⟨l', h3, h4⟩ := hf a s1
      refine ⟨l ++ l', ?_, ?_⟩
      · show (f a s1).2.log = _
        rw [h3, ← List.append_assoc]
        exact congrArg (· ++ l') h1
      · rw [List.countP_append]; omega

theorem Posts.handler {α : Type} {n k : Nat} {m : PyM (St σ) α} {f : Exc → PyM (St σ) α} (hm : Posts n m)
    (hf : ∀ e, Posts k (f e)) : Posts (n + k) (tryExcept m f) := by
  intro s
  obtain ⟨l, h1, h2⟩ := hm s
  cases h : m s with
  | mk r s1 =>
    rw [h] at h1
    cases r with
    | ok a => exact ⟨l, by rw [tryExcept_ok h]; exact h1, by omega⟩
    | error e =>
      obtain ⟨l', h3, h4⟩ := hf e s1
      refine ⟨l ++ l', ?_, ?_⟩
      · rw [tryExcept_error h, h3, ← List.append_assoc]
        exact congrArg (· ++ l') h1
      · rw [List.countP_append]; omega

theorem Posts.still {α : Type} {m : PyM (St σ) α} (h : ∀ s, (m s).2.log = s.log) : Posts 0 m :=
  fun s => ⟨[], by rw [h s, List.append_nil], Nat.le_refl _⟩

theorem Posts.handleCode (resp : Json) : Posts (σ := σ) 0 (handleCode resp) := by
  apply Posts.still
  intro s
  rcases handleCode_spec resp s with ⟨_, h⟩ | ⟨_, _, _, _, h⟩ | ⟨_, _, _, h, _⟩ <;> rw [h] <;> rfl

theorem Posts.sendRequest (body : Body) :
    Posts (if isRequest (.post .app body (.error .kasa)) then 1 else 0) (sendRequest env body) := by
  have hpost : Posts (if isRequest (.post .app body (.error .kasa)) then 1 else 0) (post env body) := by
    intro s
    refine ⟨_, rfl, ?_⟩
    cases body <;> simp [isRequest]
  refine hpost.bind (k := 0) (fun r => ?_)
  split
  · exact Posts.still fun _ => rfl
  · exact (Posts.handleCode r.2).bind (k := 0) fun _ => Posts.still fun _ => rfl

theorem Posts.now : Posts 0 (now env) := fun _ => ⟨_, rfl, by simp [isRequest]⟩

theorem Posts.tryLogin (params : Json) : Posts 0 (tryLogin env params) := by
  refine (Posts.sendRequest env (.login params)).bind (k := 0) fun resp => ?_
  refine (Posts.handleCode resp).bind (k := 0) fun _ => ?_
  refine (Posts.still (m := lift (Aes.resultOf resp "token")) fun s => by rw [lift_apply]).bind (k := 0) fun t => ?_
  refine (Posts.still (m := modifyS fun s => { s with url := .token t, established := true }) fun _ => rfl).bind (k := 0)
    fun _ => ?_
  exact (Posts.now env).bind (k := 0) fun _ => Posts.still fun _ => rfl

theorem Posts.ensureLogin : Posts 0 (ensureLogin env cfg) := by
  have hlogin : Posts 0 (performLogin env cfg) := by
    refine (Posts.tryLogin env cfg.loginParams).handler (k := 0) fun ex => ?_
    split
    · split
      · exact Posts.still fun _ => rfl
      · refine (Posts.tryLogin env cfg.defaultParams).handler (k := 0) fun ex' => ?_
        split <;> exact Posts.still fun _ => rfl
    · exact Posts.still fun _ => rfl
  have hexp : Posts 0 (sessionExpired env) := by
    refine (Posts.still (m := getS) fun _ => rfl).bind (k := 0) fun s => ?_
    split
    · exact Posts.still fun _ => rfl
    · exact (Posts.now env).bind (k := 0) fun _ => Posts.still fun _ => rfl
  have hneeds : Posts 0 (needsLogin env) := by
    refine (Posts.still (m := getS) fun _ => rfl).bind (k := 0) fun s => ?_
    split
    · exact hexp
    · exact Posts.still fun _ => rfl
  refine hneeds.bind (k := 0) fun b => ?_
  split
  · exact hlogin
  · exact Posts.still fun _ => rfl

/-- C61: a call posts its request at most once; a failed request is never repeated by the transport. -/
theorem C61_once (request : Bytes) (s : St σ) :
    ∃ l, (send env cfg request s).2.log = s.log ++ l ∧ l.countP isRequest ≤ 1 := by
  have h : Posts (0 + (0 + 1)) (send env cfg request) := by
    refine Posts.bind (n := 0) (k := 0 + 1) ?_ fun _ => ?_
    · exact fun s => ⟨[.call], rfl, by simp [isRequest]⟩
    · exact (Posts.ensureLogin env cfg).bind fun _ => Posts.sendRequest env (.request request)
  exact h s

/-- C61: whatever happened before, a call succeeds if the device accepts the login and the request. -/
theorem C61_recovers (request : Bytes) (s : St σ) (answer : Json) (hans : successful answer = true)
    (hlogin : ∀ url params w, ∃ resp t, (env.post url (.login params) w).1 = .ok (200, resp) ∧ successful resp = true ∧
      tokenOf resp = some t)
    (hreq : ∀ url w, (env.post url (.request request) w).1 = .ok (200, answer)) :
    (send env cfg request s).1 = .ok answer := by
  have hsend : ∀ s1 : St σ, (sendRequest env (.request request) s1).1 = .ok answer := by
    intro s1
    unfold sendRequest
    rw [bind_apply]
    unfold post
    simp only [hreq, Except.mapError]
    rw [if_neg (by simp), bind_apply]
    rcases handleCode_spec answer
      ({ s1 with world := (env.post s1.url (.request request) s1.world).2, log := s1.log ++ [.post s1.url (.request request) (.ok (200, answer))] } : St σ)
      with ⟨_, h⟩ | ⟨hs, _⟩ | ⟨hs, _⟩
    · rw [h]; rfl
    · rw [hans] at hs; cases hs
    · rw [hans] at hs; cases hs
  have htry : ∀ (params : Json) (s1 : St σ), ∃ s2, tryLogin env params s1 = (.ok (), s2) := by
    intro params s1
    obtain ⟨resp, t, h1, h2, h3⟩ := hlogin s1.url params s1.world
    unfold tryLogin
    rw [bind_apply]
    unfold sendRequest
    rw [bind_apply]
    unfold post
    simp only [h1, Except.mapError]
    rw [if_neg (by simp), bind_apply]
    have hok : ∀ s3 : St σ, handleCode resp s3 = (.ok (), s3) := by
      intro s3
      rcases handleCode_spec resp s3 with ⟨_, h⟩ | ⟨hs, _⟩ | ⟨hs, _⟩
      · exact h
      · rw [h2] at hs; cases hs
      · rw [h2] at hs; cases hs
    rw [hok]
    simp only [pure_apply]
    rw [bind_apply, hok]
    simp only
    rw [bind_apply, lift_apply]
    cases ht : Aes.resultOf resp "token" with
    | ok v => exact ⟨_, rfl⟩
    | error e =>
      have : tokenOf resp = none := Aes.resultOf_error ht
      rw [h3] at this; cases this
  have hperform : ∀ s1 : St σ, ∃ s2, performLogin env cfg s1 = (.ok (), s2) := by
    intro s1
    obtain ⟨s2, h⟩ := htry cfg.loginParams s1
    exact ⟨s2, tryExcept_ok h⟩
  have hensure : ∀ s1 : St σ, ∃ s2, ensureLogin env cfg s1 = (.ok (), s2) := by
    intro s1
    have hneeds : ∃ b s2, needsLogin env s1 = (.ok b, s2) := by
      unfold needsLogin sessionExpired
      rw [bind_apply, get_apply]
      simp only
      split
      · rw [bind_apply, get_apply]
        simp only
        cases s1.expireAt with
        | none => exact ⟨_, _, rfl⟩
        | some d => exact ⟨_, _, rfl⟩
      · exact ⟨_, _, rfl⟩
    obtain ⟨b, s2, h⟩ := hneeds
    unfold ensureLogin
    rw [bind_ok h]
    cases b with
    | true => exact hperform s2
    | false => exact ⟨s2, rfl⟩
  unfold send
  rw [bind_apply, modify_apply]
  simp only
  obtain ⟨s2, h⟩ := hensure { s with log := s.log ++ [.call] }
  rw [bind_ok h]
  exact hsend s2

end

/-! ## Witnesses -/

/-- A device whose world is the list of clock readings to come and the list of answers to come. -/
def sampleEnv : Env (List Int × List Json) where
  post _ _ w := (.ok (200, w.2.headD .null), (w.1, w.2.tail))
  now w := (w.1.headD 0, (w.1.tail, w.2))

def sampleConfig : Config := ⟨.str "user", .str "default"⟩

def welcome (t : String) : Json := .obj [("error_code", .num 0), ("result", .obj [("token", .str t)])]
def done : Json := .obj [("error_code", .num 0)]
def wrong : Json := .obj [("error_code", .num (-1501))]

/-- Which posts were made. -/
def posts (log : List Ev) : List (Url × Body) :=
  log.filterMap fun e => match e with | .post url body _ => some (url, body) | _ => none

/-- Non-vacuity: a login with the default credentials, a request in that session a second before its end and one after
it, which is preceded by a login (still under the old token) and one that is refused, after which there is a login. -/
example : posts (history sampleEnv sampleConfig ([10, 85209, 85210, 85211, 85212, 85213],
      [wrong, welcome "A", done, done, welcome "B", wrong, welcome "C", done])
      [.send [1], .send [2], .send [3], .send [4]]).log =
    [(.app, .login (.str "user")), (.app, .login (.str "default")), (.token (.str "A"), .request [1]),
     (.token (.str "A"), .request [2]), (.token (.str "A"), .login (.str "user")), (.token (.str "B"), .request [3]),
     (.app, .login (.str "user")), (.token (.str "C"), .request [4])] := by decide +kernel

/-- Non-vacuity of `C61_answer` and `C61_recovers`: a device that accepts everything. -/
def willing : Env Unit where
  post _ body _ := (match body with | .login _ => .ok (200, welcome "T") | .request _ => .ok (200, done), ())
  now _ := (5, ())

example : (send willing sampleConfig [7] { world := (), established := true, expireAt := some 3 }).1 = .ok done :=
  C61_recovers willing sampleConfig [7] _ done (by decide) (fun _ _ _ => ⟨_, _, rfl, rfl, rfl⟩) (fun _ _ => rfl)

/-- C61 does not extend to errors: a login answered without a token, or with a code the library does not know, raises
an exception that is not the library's. -/
theorem C61_foreign_errors :
    (send sampleEnv sampleConfig [1] { world := ([], [done]) }).1 = .error (.other "KeyError") ∧
    (send sampleEnv sampleConfig [1] { world := ([], [.obj [("error_code", .num 4711)]]) }).1 =
      .error (.other "ValueError") := by decide +kernel

end Kasa.Ssl
