import Verif.Spec.Ssl
import Verif.Lemmas.ErrorCodes
import Verif.Lemmas.Aes
/-!
# Lemmas about the HTTPS transport
-/

namespace Kasa.Ssl
open PyM SslSpec

variable {σ : Type} (env : Env σ) (cfg : Config)

/-! ## Error codes -/

theorem refused_iff (resp : Json) :
    refused resp = true ↔ ∃ n, resp.get? "error_code" = some (.num n) ∧ CodesSpec.Authentication n := by
  unfold refused
  split
  · rename_i n h
    simp [h]
  · rename_i h
    constructor
    · intro hf; cases hf
    · rintro ⟨n, hn, _⟩; exact absurd hn (h n)

/-- What the error check does, in terms of the specification, for the value under `error_code`. -/
theorem handleRaw_spec (raw : Option Json) (s : St σ) :
    ((raw == some (.num 0) || raw == some (.bool false)) = true ∧ handleRaw raw s = (.ok (), s)) ∨
    ((raw == some (.num 0) || raw == some (.bool false)) = false ∧
      ((∃ n, raw = some (.num n) ∧ CodesSpec.Authentication n ∧ handleRaw raw s = (.error (.auth (some n)), down s)) ∨
       ((∀ n, raw = some (.num n) → ¬ CodesSpec.Authentication n) ∧
         ∃ e, handleRaw raw s = (.error e, s) ∧ ∀ c, e ≠ .auth c))) := by
  unfold handleRaw
  cases raw with
  | none => right; exact ⟨by decide, .inr ⟨by simp, _, rfl, by simp⟩⟩
  | some v =>
    cases v with
    | num n =>
      have hl : Codes.fromInt (some (.num n)) = if n ∈ CodesSpec.documented then .code n else .valueError := by
        unfold Codes.fromInt Codes.lookupInt
        rw [Codes.known_eq]
      rw [hl]
      by_cases hk : n ∈ CodesSpec.documented
      · rw [if_pos hk]
        simp only
        by_cases h0 : n = 0
        · left; subst h0; exact ⟨by decide, rfl⟩
        · right
          refine ⟨by simp [h0], ?_⟩
          rw [if_neg h0]
          have hcl := Codes.classify_reported n h0
          have hr : CodesSpec.reported n = n := by simp [CodesSpec.reported, hk]
          rw [hr] at hcl
          unfold CodesSpec.expected at hcl
          rw [if_neg h0] at hcl
          by_cases hre : CodesSpec.Retryable n
          · rw [if_pos hre] at hcl
            simp only [Except.error.injEq] at hcl
            rw [hcl]
            refine .inr ⟨?_, .retryable (some n), rfl, by simp⟩
            intro m hm
            simp only [Option.some.injEq, Json.num.injEq] at hm
            subst hm
            unfold CodesSpec.Retryable at hre; unfold CodesSpec.Authentication; omega
          · rw [if_neg hre] at hcl
            by_cases ha : CodesSpec.Authentication n
            · rw [if_pos ha] at hcl
              simp only [Except.error.injEq] at hcl
              rw [hcl]
              exact .inl ⟨n, rfl, ha, rfl⟩
            · rw [if_neg ha] at hcl
              simp only [Except.error.injEq] at hcl
              rw [hcl]
              refine .inr ⟨?_, .device (some (CodesSpec.reported n)), rfl, by simp⟩
              intro m hm
              simp only [Option.some.injEq, Json.num.injEq] at hm
              subst hm
              exact ha
      · rw [if_neg hk]
        right
        refine ⟨?_, .inr ⟨?_, _, rfl, by simp⟩⟩
        · have h0 : n ≠ 0 := by rintro rfl; exact hk Codes.zero_known
          simp [h0]
        · intro m hm ha
          simp only [Option.some.injEq, Json.num.injEq] at hm
          subst hm
          exact hk (Codes.authentication_known ha)
    | bool b =>
      cases b with
      | false => left; exact ⟨by decide, rfl⟩
      | true => right; exact ⟨by decide, .inr ⟨by simp, _, rfl, by simp⟩⟩
    | null => right; exact ⟨by decide, .inr ⟨by simp, _, rfl, by simp⟩⟩
    | str x => right; exact ⟨by simp, .inr ⟨by simp, _, rfl, by simp⟩⟩
    | arr x => right; exact ⟨by simp, .inr ⟨by simp, _, rfl, by simp⟩⟩
    | obj x => right; exact ⟨by simp, .inr ⟨by simp, _, rfl, by simp⟩⟩

theorem handleCode_spec (resp : Json) (s : St σ) :
    (successful resp = true ∧ handleCode resp s = (.ok (), s)) ∨
    (successful resp = false ∧ refused resp = true ∧ ∃ n, resp.get? "error_code" = some (.num n) ∧
      handleCode resp s = (.error (.auth (some n)), down s)) ∨
    (successful resp = false ∧ refused resp = false ∧ ∃ e, handleCode resp s = (.error e, s) ∧ ∀ c, e ≠ .auth c) := by
  cases resp with
  | obj kvs =>
    have hg : (Json.obj kvs).get? "error_code" = Dict.get? kvs "error_code" := rfl
    rcases handleRaw_spec (Dict.get? kvs "error_code") s with ⟨h1, h2⟩ | ⟨h1, ⟨n, hn, ha, h2⟩ | ⟨hn, e, h2, he⟩⟩
    · exact .inl ⟨h1, h2⟩
    · exact .inr (.inl ⟨h1, (refused_iff _).mpr ⟨n, hn, ha⟩, n, hn, h2⟩)
    · refine .inr (.inr ⟨h1, ?_, e, h2, he⟩)
      cases hr : refused (.obj kvs) with
      | false => rfl
      | true =>
        obtain ⟨n, hn', ha⟩ := (refused_iff _).mp hr
        exact absurd ha (hn n hn')
  | null => exact .inr (.inr ⟨rfl, rfl, _, rfl, by simp⟩)
  | bool b => exact .inr (.inr ⟨rfl, rfl, _, rfl, by simp⟩)
  | num n => exact .inr (.inr ⟨rfl, rfl, _, rfl, by simp⟩)
  | str x => exact .inr (.inr ⟨rfl, rfl, _, rfl, by simp⟩)
  | arr x => exact .inr (.inr ⟨rfl, rfl, _, rfl, by simp⟩)

theorem successful_not_refused {resp : Json} (h : successful resp = true) : refused resp = false := by
  cases hr : refused resp with
  | false => rfl
  | true =>
    obtain ⟨n, hn, ha⟩ := (refused_iff resp).mp hr
    unfold successful at h
    rw [hn] at h
    simp at h
    subst h
    exact absurd ha (by decide)

/-! ## The observer and the invariant -/

theorem observe_append (log : List Ev) (e : Ev) : observe cfg (log ++ [e]) = see cfg (observe cfg log) e := by
  simp [observe, List.foldl_append]

/-- What the observer knows in a state. -/
def obs (s : St σ) : Obs := observe cfg s.log

/-- Is the event one the observer accepts? -/
def Fine (asked : Bytes → Prop) (o : Obs) : Ev → Prop
  | .post url (.request text) _ => RequestAllowed asked o url text
  | .post _ (.login params) _ => LoginAllowed cfg o params
  | _ => True

theorem accepted_snoc {asked : Bytes → Prop} {log : List Ev} {e : Ev} (ha : Accepted cfg asked log)
    (he : Fine cfg asked (observe cfg log) e) : Accepted cfg asked (log ++ [e]) := by
  intro before url body out after hlog
  rcases List.eq_nil_or_concat after with rfl | ⟨after', x, rfl⟩
  · have := List.append_inj' hlog (by simp)
    obtain ⟨rfl, h2⟩ := this
    simp only [List.cons.injEq, and_true] at h2
    subst h2
    cases body <;> exact he
  · have hh : log ++ [e] = (before ++ .post url body out :: after') ++ [x] := by
      rw [hlog]; simp
    have := List.append_inj' hh (by simp)
    exact ha before url body out after' this.1

/-- The transport's view of the session agrees with the observer's. -/
structure Agrees (s : St σ) (o : Obs) : Prop where
  idle : o.justIn = false
  out : s.established = false → o.token = none ∧ s.url = .app
  up : s.established = true → ∃ t d, s.url = .token t ∧ o.token = some t ∧ s.expireAt = some d ∧ o.deadline = some d

/-- The invariant between the operations. -/
structure Inv (asked : Bytes → Prop) (s : St σ) : Prop where
  accepted : Accepted cfg asked s.log
  agrees : Agrees s (obs cfg s)

theorem Agrees.down {s : St σ} {o o' : Obs} (h : Agrees s o) (hj : o'.justIn = o.justIn) (ht : o'.token = none) :
    Agrees (Ssl.down s) o' :=
  ⟨hj.trans h.idle, fun _ => ⟨ht, rfl⟩, fun hf => by cases hf⟩

/-- What is the same in two observations. -/
theorem Agrees.same {s s' : St σ} {o o' : Obs} (h : Agrees s o) (hj : o'.justIn = o.justIn) (ht : o'.token = o.token)
    (hd : o'.deadline = o.deadline) (he : s'.established = s.established) (hu : s'.url = s.url)
    (hx : s'.expireAt = s.expireAt) : Agrees s' o' := by
  refine ⟨hj.trans h.idle, ?_, ?_⟩
  · rw [he, ht, hu]; exact h.out
  · rw [he, ht, hu, hd, hx]; exact h.up

theorem httpError_not_auth (e : HttpError) (n : Option Int) : e.exc ≠ .auth n := by cases e <;> simp [HttpError.exc]

/-- What the observer makes of a post that is not answered with a valid response. -/
theorem see_post_other (o : Obs) (url : Url) (body : Body) (out : Except HttpError (Int × Json))
    (h : ∀ r, out ≠ .ok (200, r)) : see cfg o (.post url body out) = o := by
  cases body <;> simp only [see]

theorem see_post_plain (o : Obs) (url : Url) (body : Body) (resp : Json) (hs : successful resp = false)
    (hr : refused resp = false) : see cfg o (.post url body (.ok (200, resp))) = o := by
  cases body with
  | login p => simp [see, seeLogin, hs, hr]
  | request p => simp [see, hr]

theorem see_post_refused (o : Obs) (url : Url) (body : Body) (resp : Json) (hr : refused resp = true) :
    (see cfg o (.post url body (.ok (200, resp)))).token = none ∧
    (see cfg o (.post url body (.ok (200, resp)))).justIn = o.justIn := by
  cases body with
  | login p => simp [see, seeLogin, hr, Obs.down]
  | request p => simp [see, hr, Obs.down]

/-- Posting and checking the answer, from a state that the observer lets post. -/
theorem sendRequest_spec {asked : Bytes → Prop} (body : Body) (s : St σ) (hi : Inv cfg asked s)
    (hf : ∀ out, Fine cfg asked (obs cfg s) (.post s.url body out)) :
    (∃ resp s', sendRequest env body s = (.ok resp, s') ∧ successful resp = true ∧
      obs cfg s' = see cfg (obs cfg s) (.post s.url body (.ok (200, resp))) ∧ Accepted cfg asked s'.log ∧
      s'.established = s.established ∧ s'.url = s.url ∧ s'.expireAt = s.expireAt) ∨
    (∃ e s', sendRequest env body s = (.error e, s') ∧ Inv cfg asked s' ∧ ∀ n, e = .auth n →
      s'.established = false ∧ ∃ resp, refused resp = true ∧
        obs cfg s' = see cfg (obs cfg s) (.post s.url body (.ok (200, resp))) ∧
        ∃ k, n = some k ∧ resp.get? "error_code" = some (.num k)) := by
  unfold sendRequest
  rw [bind_apply]
  unfold post
  cases hp : (env.post s.url body s.world).1 with
  | error e =>
    right
    simp only [Except.mapError]
    refine ⟨e.exc, _, rfl, ⟨accepted_snoc cfg hi.accepted (hf _), ?_⟩, fun n hn => absurd hn (httpError_not_auth e n)⟩
    have ho := see_post_other cfg (obs cfg s) s.url body (.error e) (by simp)
    unfold obs at ho ⊢
    rw [observe_append, ho]
    exact hi.agrees.same rfl rfl rfl rfl rfl rfl
  | ok r =>
    simp only [Except.mapError]
    by_cases h200 : r.1 ≠ 200
    · right
      rw [if_pos h200]
      refine ⟨.kasa, _, rfl, ⟨accepted_snoc cfg hi.accepted (hf _), ?_⟩, by simp⟩
      have ho := see_post_other cfg (obs cfg s) s.url body (.ok r) (by
        intro r' h; apply h200; injection h with h; rw [h])
      unfold obs at ho ⊢
      rw [observe_append, ho]
      exact hi.agrees.same rfl rfl rfl rfl rfl rfl
    · rw [if_neg h200]
      obtain ⟨code, resp⟩ := r
      have h200' : code = 200 := Decidable.of_not_not h200
      subst h200'
      simp only
      rw [bind_apply]
      rcases handleCode_spec resp ({ s with world := (env.post s.url body s.world).2, log := s.log ++ [.post s.url body (.ok (200, resp))] } : St σ)
        with ⟨hs, h⟩ | ⟨hs, hr, n, hn, h⟩ | ⟨hs, hr, e, h, he⟩
      · left
        rw [h]
        refine ⟨resp, _, rfl, hs, ?_, accepted_snoc cfg hi.accepted (hf _), rfl, rfl, rfl⟩
        unfold obs
        rw [observe_append]
      · right
        rw [h]
        refine ⟨_, _, rfl, ⟨accepted_snoc cfg hi.accepted (hf _), ?_⟩, ?_⟩
        · have ho := see_post_refused cfg (obs cfg s) s.url body resp hr
          unfold obs at ho ⊢
          have : (down ({ s with world := (env.post s.url body s.world).2, log := s.log ++ [.post s.url body (.ok (200, resp))] } : St σ)).log = s.log ++ [.post s.url body (.ok (200, resp))] := rfl
          rw [this, observe_append]
          exact ⟨ho.2.trans hi.agrees.idle, fun _ => ⟨ho.1, rfl⟩, fun hf' => by cases hf'⟩
        · intro m hm
          simp only [Exc.auth.injEq] at hm
          subst hm
          refine ⟨rfl, resp, hr, ?_, n, rfl, hn⟩
          unfold obs
          have : (down ({ s with world := (env.post s.url body s.world).2, log := s.log ++ [.post s.url body (.ok (200, resp))] } : St σ)).log = s.log ++ [.post s.url body (.ok (200, resp))] := rfl
          rw [this, observe_append]
      · right
        rw [h]
        refine ⟨e, _, rfl, ⟨accepted_snoc cfg hi.accepted (hf _), ?_⟩, fun n hn => absurd hn (he n)⟩
        have ho := see_post_plain cfg (obs cfg s) s.url body resp hs hr
        unfold obs at ho ⊢
        rw [observe_append, ho]
        exact hi.agrees.same rfl rfl rfl rfl rfl rfl

/-- The session was checked or made in this call. -/
def Checked (s : St σ) : Prop := s.established = true ∧ Live (obs cfg s)

/-- A login that the observer accepts: afterwards there is a fresh session, or none. -/
theorem tryLogin_spec {asked : Bytes → Prop} (params : Json) (s : St σ) (hi : Inv cfg asked s)
    (hf : LoginAllowed cfg (obs cfg s) params) :
    (∃ s', tryLogin env params s = (.ok (), s') ∧ Inv cfg asked s' ∧ Checked cfg s') ∨
    (∃ e s', tryLogin env params s = (.error e, s') ∧ Inv cfg asked s' ∧ ∀ n, e = .auth n →
      s'.established = false ∧ (n = some (-1501) → params = cfg.loginParams → (obs cfg s').wrong = true)) := by
  unfold tryLogin
  rw [bind_apply]
  rcases sendRequest_spec env cfg (.login params) s hi (fun _ => hf) with
    ⟨resp, s', h, hs, ho, ha, he, hu, hx⟩ | ⟨e, s', h, hi', hauth⟩
  · rw [h]
    simp only
    rw [bind_apply]
    rcases handleCode_spec resp s' with ⟨_, h2⟩ | ⟨hs2, _⟩ | ⟨hs2, _⟩
    · rw [h2]
      simp only
      rw [bind_apply, lift_apply]
      have hnr := successful_not_refused hs
      cases ht : Aes.resultOf resp "token" with
      | error e =>
        right
        refine ⟨e, s', rfl, ⟨ha, ?_⟩, ?_⟩
        · have htn : tokenOf resp = none := Aes.resultOf_error ht
          rw [ho]
          simp only [see, seeLogin, hnr, hs, htn]
          exact hi.agrees.same rfl rfl rfl he hu hx
        · intro n hn
          exfalso
          unfold Aes.resultOf at ht
          split at ht
          · cases ht; cases hn
          · split at ht
            · cases ht; cases hn
            · cases ht
      | ok token =>
        left
        have htn : tokenOf resp = some token := Aes.resultOf_ok ht
        refine ⟨_, rfl, ⟨?_, ?_⟩, rfl, ?_⟩
        · exact accepted_snoc cfg ha trivial
        · have : obs cfg s' = { obs cfg s with token := some token, justIn := true } := by
            rw [ho]; simp only [see, seeLogin, hnr, hs, htn]; rfl
          unfold obs at this ⊢
          simp only [observe_append, this, see]
          refine ⟨rfl, fun hf => (by cases hf), fun _ => ⟨token, _, rfl, rfl, rfl, ?_⟩⟩
          simp [Aes.oneDay, Aes.buffer]
        · have : obs cfg s' = { obs cfg s with token := some token, justIn := true } := by
            rw [ho]; simp only [see, seeLogin, hnr, hs, htn]; rfl
          unfold obs at this ⊢
          simp only [observe_append, this, see]
          exact .inl rfl
    · rw [hs] at hs2; cases hs2
    · rw [hs] at hs2; cases hs2
  · right
    rw [h]
    refine ⟨e, s', rfl, hi', ?_⟩
    intro n hn
    obtain ⟨h1, resp, hr, ho, k, hk, hcode⟩ := hauth n hn
    refine ⟨h1, ?_⟩
    intro hn' hp
    rw [hn'] at hk
    injection hk with hk
    subst hk hp
    rw [ho]
    simp [see, seeLogin, hr, wrongCredentials, hcode]

/-- When the observer lets the user log in. -/
def MayLogin (s : St σ) : Prop :=
  (obs cfg s).token = none ∨ ∃ t d, (obs cfg s).now = some t ∧ (obs cfg s).deadline = some d ∧ d ≤ t

theorem performLogin_spec {asked : Bytes → Prop} (s : St σ) (hi : Inv cfg asked s) (hm : MayLogin cfg s) :
    (∃ s', performLogin env cfg s = (.ok (), s') ∧ Inv cfg asked s' ∧ Checked cfg s') ∨
    (∃ e s', performLogin env cfg s = (.error e, s') ∧ Inv cfg asked s') := by
  unfold performLogin
  rcases tryLogin_spec env cfg cfg.loginParams s hi (.inl ⟨rfl, hm⟩) with ⟨s', h, h1, h2⟩ | ⟨e, s', h, h1, h2⟩
  · exact .inl ⟨s', tryExcept_ok h, h1, h2⟩
  · rw [tryExcept_error h]
    cases e with
    | auth code =>
      simp only
      by_cases hc : code ≠ some Codes.loginError
      · rw [if_pos hc]; exact .inr ⟨_, _, rfl, h1⟩
      · rw [if_neg hc]
        have hc' : code = some (-1501) := Decidable.of_not_not hc
        obtain ⟨h3, h4⟩ := h2 code rfl
        have hw := h4 hc' rfl
        rcases tryLogin_spec env cfg cfg.defaultParams s' h1 (.inr ⟨rfl, hw, (h1.agrees.out h3).1⟩) with
          ⟨s'', h, h1, h2⟩ | ⟨e, s'', h, h1, h2⟩
        · exact .inl ⟨s'', tryExcept_ok h, h1, h2⟩
        · rw [tryExcept_error h]
          right
          cases e <;> exact ⟨_, _, rfl, h1⟩
    | _ => exact .inr ⟨_, _, rfl, h1⟩

theorem clock_inv {asked : Bytes → Prop} {s : St σ} (hi : Inv cfg asked s) (t : Int) (w : σ) :
    Inv cfg asked { s with world := w, log := s.log ++ [.clock t] } ∧
    obs cfg ({ s with world := w, log := s.log ++ [.clock t] } : St σ) = { obs cfg s with now := some t } := by
  have ho : obs cfg ({ s with world := w, log := s.log ++ [.clock t] } : St σ) = { obs cfg s with now := some t } := by
    have hj := hi.agrees.idle
    unfold obs at hj ⊢
    rw [observe_append]
    simp [see, hj]
  refine ⟨⟨accepted_snoc cfg hi.accepted trivial, ?_⟩, ho⟩
  rw [ho]
  exact hi.agrees.same rfl rfl rfl rfl rfl rfl

theorem ensureLogin_spec {asked : Bytes → Prop} (s : St σ) (hi : Inv cfg asked s) :
    (∃ s', ensureLogin env cfg s = (.ok (), s') ∧ Inv cfg asked s' ∧ Checked cfg s') ∨
    (∃ e s', ensureLogin env cfg s = (.error e, s') ∧ Inv cfg asked s') := by
  unfold ensureLogin needsLogin
  rw [bind_apply, bind_apply, get_apply]
  simp only
  cases he : s.established with
  | false => exact performLogin_spec env cfg s hi (.inl (hi.agrees.out he).1)
  | true =>
    obtain ⟨tok, d, _, htok, hx, hd⟩ := hi.agrees.up he
    simp only [if_true]
    unfold sessionExpired
    rw [bind_apply, get_apply]
    simp only [hx]
    rw [bind_apply]
    unfold now
    simp only [pure_apply]
    obtain ⟨hi2, ho2⟩ := clock_inv cfg hi (env.now s.world).1 (env.now s.world).2
    by_cases hlt : d - (env.now s.world).1 ≤ 0
    · simp only [hlt, decide_true, if_true]
      refine performLogin_spec env cfg _ hi2 (.inr ⟨(env.now s.world).1, d, ?_, ?_, by omega⟩)
      · rw [ho2]
      · rw [ho2]; exact hd
    · simp only [hlt, decide_false]
      refine .inl ⟨_, rfl, hi2, he, .inr ⟨(env.now s.world).1, d, ?_, ?_, by omega⟩⟩
      · rw [ho2]
      · rw [ho2]; exact hd

theorem send_inv {asked : Bytes → Prop} (m : Bytes) (hm : asked m) {s : St σ} (hi : Inv cfg asked s) :
    Inv cfg asked (send env cfg m s).2 := by
  unfold send
  rw [bind_apply, modify_apply]
  simp only
  have hi1 : Inv cfg asked ({ s with log := s.log ++ [.call] } : St σ) := by
    refine ⟨accepted_snoc cfg hi.accepted trivial, ?_⟩
    have h := hi.agrees
    unfold obs at h ⊢
    rw [observe_append]
    exact h.same rfl rfl rfl rfl rfl rfl
  rw [bind_apply]
  rcases ensureLogin_spec env cfg _ hi1 with ⟨s', h, h1, he, hl⟩ | ⟨e, s', h, h1⟩
  · rw [h]
    simp only
    obtain ⟨tok, d, hu, htok, hx, hd⟩ := h1.agrees.up he
    rcases sendRequest_spec env cfg (.request m) s' h1 (fun _ => ⟨hm, tok, htok, hu, hl⟩) with
      ⟨resp, s'', h, hs, ho, ha, he', hu', hx'⟩ | ⟨e, s'', h, hi', _⟩
    · rw [h]
      refine ⟨ha, ?_⟩
      rw [ho]
      simp only [see, successful_not_refused hs]
      exact h1.agrees.same rfl rfl rfl he' hu' hx'
    · rw [h]; exact hi'
  · rw [h]; exact h1

theorem reset_inv {asked : Bytes → Prop} {s : St σ} (hi : Inv cfg asked s) : Inv cfg asked (reset s).2 := by
  have h := hi.agrees
  refine ⟨accepted_snoc cfg hi.accepted trivial, ?_⟩
  unfold reset
  rw [modify_apply]
  unfold obs at h ⊢
  have : (down ({ s with log := s.log ++ [.reset] } : St σ)).log = s.log ++ [.reset] := rfl
  simp only
  rw [this, observe_append]
  exact ⟨h.idle, fun _ => ⟨rfl, rfl⟩, fun hf => by cases hf⟩

theorem history_inv (w : σ) (ops : List Op) : Inv cfg (fun m => .send m ∈ ops) (history env cfg w ops) := by
  suffices hgen : ∀ (todo done : List Op) (s : St σ), Inv cfg (fun m => .send m ∈ done ++ todo) s →
      Inv cfg (fun m => .send m ∈ done ++ todo) (todo.foldl (step env cfg) s) by
    have h0 : Inv cfg (fun m => .send m ∈ [] ++ ops) ({ world := w } : St σ) := by
      refine ⟨?_, rfl, fun _ => ⟨rfl, rfl⟩, fun h => by cases h⟩
      intro before url body out after hlog
      simp at hlog
    exact hgen ops [] _ h0
  intro todo
  induction todo with
  | nil => intro done s hi; exact hi
  | cons op ops ih =>
    intro done s hi
    have hstep : Inv cfg (fun m => .send m ∈ done ++ op :: ops) (step env cfg s op) := by
      cases op with
      | send m => exact send_inv env cfg m (by simp) hi
      | reset => exact reset_inv cfg hi
    have := ih (done ++ [op]) (step env cfg s op) (by simpa using hstep)
    simpa using this

end Kasa.Ssl
