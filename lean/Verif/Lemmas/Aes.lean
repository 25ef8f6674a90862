import Verif.Spec.Aes
import Verif.Lemmas.ErrorCodes
/-!
# Lemmas about the AES transport
-/

namespace Kasa.Aes
open PyM AesSpec

variable {σ : Type} (c : BlockCipher) (env : Env σ) (cfg : Config)

/-! ## Error codes -/

theorem get_obj (kvs : List (String × Json)) (k : String) : (Json.obj kvs).get? k = Dict.get? kvs k := rfl

/-- What the error check does, in terms of the specification, for the value under `error_code`. -/
theorem handleRaw_spec (raw : Option Json) (s : St σ) :
    ((raw == some (.num 0) || raw == some (.bool false)) = true ∧ handleRaw raw s = (.ok (), s)) ∨
    ((raw == some (.num 0) || raw == some (.bool false)) = false ∧ ∃ e b, handleRaw raw s =
      (.error e, if b = true then { s with phase := .handshakeRequired } else s) ∧
      (b = true ↔ ∃ n, raw = some (.num n) ∧ CodesSpec.Authentication n)) := by
  unfold handleRaw
  cases raw with
  | none => right; exact ⟨by decide, .device (some (-100000)), false, rfl, by simp⟩
  | some v =>
    cases v with
    | num n =>
      rw [Codes.readCode_num]
      simp only [Codes.reported_zero_iff]
      by_cases h0 : n = 0
      · left
        subst h0
        exact ⟨by decide, by simp⟩
      · right
        refine ⟨by simp [h0], ?_⟩
        rw [if_neg h0]
        have hcl := Codes.classify_reported n h0
        unfold CodesSpec.expected at hcl
        rw [if_neg h0] at hcl
        by_cases hr : CodesSpec.Retryable n
        · rw [if_pos hr] at hcl
          have hna : ¬ CodesSpec.Authentication n := by
            unfold CodesSpec.Retryable at hr; unfold CodesSpec.Authentication; omega
          simp only [Except.error.injEq] at hcl
          rw [hcl]
          exact ⟨.retryable (some n), false, by simp, by simp [hna]⟩
        · rw [if_neg hr] at hcl
          by_cases ha : CodesSpec.Authentication n
          · rw [if_pos ha] at hcl
            simp only [Except.error.injEq] at hcl
            rw [hcl]
            exact ⟨.auth (some n), true, by simp [bind_apply], by simp [ha]⟩
          · rw [if_neg ha] at hcl
            simp only [Except.error.injEq] at hcl
            rw [hcl]
            exact ⟨.device (some (CodesSpec.reported n)), false, by simp, by simp [ha]⟩
    | bool b =>
      cases b with
      | false => left; exact ⟨by decide, rfl⟩
      | true => right; exact ⟨by decide, .device (some (-100000)), false, rfl, by simp⟩
    | null => right; exact ⟨by decide, .device (some (-100000)), false, rfl, by simp⟩
    | str x => right; exact ⟨by simp, .device (some (-100000)), false, rfl, by simp⟩
    | arr x => right; exact ⟨by simp, .other "TypeError", false, rfl, by simp⟩
    | obj x => right; exact ⟨by simp, .other "TypeError", false, rfl, by simp⟩

theorem refused_iff (resp : Json) :
    refused resp = true ↔ ∃ n, resp.get? "error_code" = some (.num n) ∧ CodesSpec.Authentication n := by
  unfold refused
  split
  · rename_i n h
    simp [h]
  · rename_i h
    constructor
    · intro hf; cases hf
    · rintro ⟨n, hn, _⟩; exact absurd hn (h n)

theorem not_refused_of_successful {resp : Json} (h : successful resp = true) : refused resp = false := by
  cases hr : refused resp with
  | false => rfl
  | true =>
    obtain ⟨n, hn, ha⟩ := (refused_iff resp).mp hr
    unfold successful at h
    rw [hn] at h
    simp at h
    subst h
    exact absurd ha (by decide)

/-- What the error check does, in terms of the specification. -/
theorem handleCode_spec (resp : Json) (s : St σ) :
    (successful resp = true ∧ refused resp = false ∧ handleCode resp s = (.ok (), s)) ∨
    (successful resp = false ∧ ∃ e, handleCode resp s =
      (.error e, if refused resp then { s with phase := .handshakeRequired } else s)) := by
  cases resp with
  | obj kvs =>
    rcases handleRaw_spec (Dict.get? kvs "error_code") s with ⟨h1, h2⟩ | ⟨h1, e, b, h2, hb⟩
    · left
      exact ⟨h1, not_refused_of_successful h1, h2⟩
    · right
      refine ⟨h1, e, ?_⟩
      have h3 : handleCode (.obj kvs) s = handleRaw (Dict.get? kvs "error_code") s := rfl
      rw [h3, h2]
      by_cases hr : refused (.obj kvs) = true
      · rw [if_pos (hb.mpr ((refused_iff _).mp hr)), if_pos hr]
      · rw [if_neg (fun h => hr ((refused_iff _).mpr (hb.mp h))), if_neg hr]
  | null => right; exact ⟨rfl, _, rfl⟩
  | bool b => right; exact ⟨rfl, _, rfl⟩
  | num n => right; exact ⟨rfl, _, rfl⟩
  | str x => right; exact ⟨rfl, _, rfl⟩
  | arr x => right; exact ⟨rfl, _, rfl⟩

theorem resultOf_ok {resp v : Json} {k : String} (h : resultOf resp k = .ok v) : result resp k = some v := by
  unfold resultOf at h
  unfold result
  cases h1 : resp.get? "result" with
  | none => rw [h1] at h; cases h
  | some r =>
    rw [h1] at h
    simp only at h
    cases h2 : r.get? k with
    | none => rw [h2] at h; cases h
    | some w => rw [h2] at h; cases h; exact h2

theorem openResponse_ok {ses : Session} {resp raw v : Json} (hs : successful resp = true)
    (hr : result resp "response" = some raw) (h : openResponse c cfg ses raw = .ok v) :
    answer c cfg ses resp = some v := by
  unfold answer
  rw [if_pos hs, hr]
  unfold openResponse at h
  cases raw with
  | str text =>
    simp only at h ⊢
    split at h
    · rename_i v' hv'
      cases h
      rw [hv']; rfl
    · rename_i hn
      split at h
      · rename_i v' hv'
        cases h
        rw [hn, hv']; rfl
      · cases h
  | _ => cases h

theorem openResponse_error {ses : Session} {resp raw : Json} {e : Exc}
    (hr : result resp "response" = some raw) (h : openResponse c cfg ses raw = .error e) :
    answer c cfg ses resp = none := by
  unfold answer
  split
  · rw [hr]
    unfold openResponse at h
    cases raw with
    | str text =>
      simp only at h ⊢
      split at h
      · cases h
      · rename_i hn
        split at h
        · cases h
        · rename_i hv'
          rw [hn, hv']; rfl
    | _ => rfl
  · rfl

theorem resultOf_error {resp : Json} {e : Exc} {k : String} (h : resultOf resp k = .error e) : result resp k = none := by
  unfold resultOf at h
  unfold result
  cases h1 : resp.get? "result" with
  | none => rfl
  | some r =>
    rw [h1] at h
    simp only at h
    cases h2 : r.get? k with
    | none => exact h2
    | some w => rw [h2] at h; cases h

/-! ## The observer and the invariant -/

theorem observe_append (log : List Ev) (e : Ev) :
    observe c cfg env.int (log ++ [e]) = see c cfg env.int (observe c cfg env.int log) e := by
  simp [observe, List.foldl_append]

/-- What the observer knows in a state. -/
def obs (s : St σ) : Obs := observe c cfg env.int s.log

theorem accepted_snoc {asked : Bytes → Prop} {log : List Ev} {e : Ev} (ha : Accepted c cfg asked env.int log)
    (he : ∀ what url body ck out, e = .post what url body ck out → (observe c cfg env.int log).badKey = false →
      (what = .request → RequestAllowed c asked (observe c cfg env.int log) url body) ∧
      (what = .login → LoginAllowed c cfg (observe c cfg env.int log) body)) :
    Accepted c cfg asked env.int (log ++ [e]) := by
  intro before what url body ck out after hlog
  rcases List.eq_nil_or_concat after with rfl | ⟨after', x, rfl⟩
  · have := List.append_inj' hlog (by simp)
    obtain ⟨rfl, h2⟩ := this
    simp only [List.cons.injEq, and_true] at h2
    exact he _ _ _ _ _ h2
  · have hh : log ++ [e] = (before ++ .post what url body ck out :: after') ++ [x] := by
      rw [hlog]; simp
    have := List.append_inj' hh (by simp)
    exact ha before what url body ck out after' this.1

/-- The transport's view of the session agrees with the observer's. -/
structure Ready (s : St σ) (o : Obs) (d : Int) : Prop where
  session : ∃ ses, s.session = some ses ∧ o.key = some ses ∧ ses.iv.length = 16
  deadline : o.deadline = some d
  idle : o.negotiating = false
  token : s.phase = .established → ∃ t, s.token = some t ∧ o.token = some t

/-- The invariant between the operations. -/
structure Inv (asked : Bytes → Prop) (s : St σ) : Prop where
  accepted : Accepted c cfg asked env.int s.log
  ready : s.phase ≠ .handshakeRequired → ∀ d, s.expireAt = some d → (obs c env cfg s).badKey = false →
    Ready s (obs c env cfg s) d

/-- The session has been checked in this call. -/
def Checked (s : St σ) : Prop := s.phase ≠ .handshakeRequired ∧ ∃ d, s.expireAt = some d ∧
  ((obs c env cfg s).badKey = false → (obs c env cfg s).fresh = true ∨ ∃ t, (obs c env cfg s).now = some t ∧ t < d)

theorem Inv.of_handshakeRequired {asked : Bytes → Prop} {s : St σ} (ha : Accepted c cfg asked env.int s.log)
    (hp : s.phase = .handshakeRequired) : Inv c env cfg asked s := ⟨ha, fun h => absurd hp h⟩

theorem Inv.of_noExpiry {asked : Bytes → Prop} {s : St σ} (ha : Accepted c cfg asked env.int s.log)
    (hp : s.expireAt = none) : Inv c env cfg asked s := ⟨ha, fun _ d hd => by rw [hp] at hd; cases hd⟩

/-! ## The handshake -/

theorem getCookie_apply (name : String) (s : St σ) : getCookie env name s =
    (.ok (env.cookie name s.world), { s with log := s.log ++ [.cookie name (env.cookie name s.world)] }) := rfl

theorem takeCookie_spec (s : St σ) : ∃ ck evs, takeCookie env s =
      (.ok (), { s with sessionCookie := ck, log := s.log ++ evs }) ∧
    ∀ ev ∈ evs, ∃ name v, ev = .cookie name v ∧ name ≠ "TIMEOUT" := by
  unfold takeCookie
  rw [bind_apply, getCookie_apply]
  simp only
  by_cases h1 : env.cookie "TP_SESSIONID" s.world ≠ none ∧ env.cookie "TP_SESSIONID" s.world ≠ some ""
  · rw [if_pos h1]
    exact ⟨env.cookie "TP_SESSIONID" s.world, [.cookie "TP_SESSIONID" (env.cookie "TP_SESSIONID" s.world)], rfl,
      by simp⟩
  · rw [if_neg h1, bind_apply, getCookie_apply]
    simp only
    by_cases h2 : env.cookie "SESSIONID" s.world ≠ none ∧ env.cookie "SESSIONID" s.world ≠ some ""
    · rw [if_pos h2]
      refine ⟨env.cookie "SESSIONID" s.world, [.cookie "TP_SESSIONID" (env.cookie "TP_SESSIONID" s.world),
        .cookie "SESSIONID" (env.cookie "SESSIONID" s.world)], ?_, by simp⟩
      rw [modify_apply]; simp
    · rw [if_neg h2]
      refine ⟨s.sessionCookie, [.cookie "TP_SESSIONID" (env.cookie "TP_SESSIONID" s.world),
        .cookie "SESSIONID" (env.cookie "SESSIONID" s.world)], ?_, by simp⟩
      rw [pure_apply]; simp

theorem observe_cookies (log evs : List Ev) (h : ∀ ev ∈ evs, ∃ name v, ev = .cookie name v ∧ name ≠ "TIMEOUT") :
    observe c cfg env.int (log ++ evs) = observe c cfg env.int log := by
  induction evs generalizing log with
  | nil => simp
  | cons ev evs ih =>
    have := ih (log ++ [ev]) fun e he => h e (List.mem_cons_of_mem _ he)
    simp only [List.append_assoc, List.cons_append, List.nil_append] at this
    rw [this, observe_append]
    obtain ⟨name, v, rfl, hn⟩ := h ev (List.mem_cons_self ..)
    simp [see, hn]

theorem accepted_cookies {asked : Bytes → Prop} {log evs : List Ev} (ha : Accepted c cfg asked env.int log)
    (h : ∀ ev ∈ evs, ∃ name v, ev = .cookie name v ∧ name ≠ "TIMEOUT") :
    Accepted c cfg asked env.int (log ++ evs) := by
  induction evs generalizing log with
  | nil => simpa using ha
  | cons ev evs ih =>
    have := ih (log := log ++ [ev]) (accepted_snoc c env cfg ha (by
      intro what url body ck out he
      obtain ⟨name, v, rfl, _⟩ := h ev (List.mem_cons_self ..)
      cases he)) fun e he => h e (List.mem_cons_of_mem _ he)
    simpa using this

theorem timeoutOf_spec {value : Option String} {n : Int} (h : timeoutOf env value = .ok n) :
    n = lifetime env.int value := by
  unfold timeoutOf at h
  unfold lifetime
  cases value with
  | none => cases h; rfl
  | some v =>
    simp only at h ⊢
    by_cases hv : v = ""
    · rw [if_pos hv] at h ⊢; cases h; rfl
    · rw [if_neg hv] at h ⊢
      cases hi : env.int v with
      | none => rw [hi] at h; cases h
      | some k => rw [hi] at h; cases h; rfl

/-- During a handshake. -/
structure Negotiating (asked : Bytes → Prop) (s : St σ) : Prop where
  accepted : Accepted c cfg asked env.int s.log
  noExpiry : s.expireAt = none
  negotiating : (obs c env cfg s).negotiating = true
  good : (obs c env cfg s).badKey = false

theorem Negotiating.inv {asked : Bytes → Prop} {s : St σ} (h : Negotiating c env cfg asked s) :
    Inv c env cfg asked s := Inv.of_noExpiry c env cfg h.accepted h.noExpiry

theorem finishHandshake_spec {asked : Bytes → Prop} (r : Int × Json) :
    Triple (Negotiating c env cfg asked) (finishHandshake env r)
      (fun _ s => Inv c env cfg asked s ∧ Checked c env cfg s ∧ s.phase = .loginRequired)
      (fun _ s => Inv c env cfg asked s) := by
  unfold finishHandshake
  split
  · exact Triple.raise fun s hs => hs.inv
  refine Triple.bind (R := fun _ s => Negotiating c env cfg asked s) ?_ fun _ => ?_
  · intro s hs
    rcases handleCode_spec r.2 s with ⟨_, _, h⟩ | ⟨_, e, h⟩
    · rw [h]; exact hs
    · rw [h]
      simp only
      split
      · exact Inv.of_handshakeRequired c env cfg hs.accepted rfl
      · exact hs.inv
  refine Triple.bind (R := fun _ s => Negotiating c env cfg asked s) ?_ fun key => ?_
  · exact Triple.lift (fun _ s _ h => h) (fun _ s _ h => h.inv)
  refine Triple.bind (R := fun _ s => Negotiating c env cfg asked s) ?_ fun _ => ?_
  · intro s hs
    obtain ⟨ck, evs, h, hev⟩ := takeCookie_spec env s
    rw [h]
    have ho : obs c env cfg { s with sessionCookie := ck, log := s.log ++ evs } = obs c env cfg s :=
      observe_cookies c env cfg s.log evs hev
    exact ⟨accepted_cookies c env cfg hs.accepted hev, hs.noExpiry, by rw [ho]; exact hs.negotiating,
      by rw [ho]; exact hs.good⟩
  refine Triple.bind (R := fun value s => Negotiating c env cfg asked s ∧ (obs c env cfg s).timeout =
      lifetime env.int value) ?_ fun value => ?_
  · intro s hs
    have ho : obs c env cfg { s with log := s.log ++ [.cookie "TIMEOUT" (env.cookie "TIMEOUT" s.world)] } =
        { obs c env cfg s with timeout := lifetime env.int (env.cookie "TIMEOUT" s.world) } := by
      unfold obs
      rw [observe_append]
      rfl
    refine ⟨⟨accepted_snoc c env cfg hs.accepted (by intro _ _ _ _ _ he; cases he), hs.noExpiry, ?_, ?_⟩, ?_⟩
    · rw [ho]; exact hs.negotiating
    · rw [ho]; exact hs.good
    · rw [ho]
  refine Triple.bind (R := fun n s => Negotiating c env cfg asked s ∧ (obs c env cfg s).timeout = n) ?_ fun n => ?_
  · exact Triple.lift (fun n s hn h => ⟨h.1, by rw [timeoutOf_spec env hn]; exact h.2⟩) (fun _ s _ h => h.1.inv)
  refine Triple.bind (R := fun t s => Negotiating c env cfg asked s ∧
      (obs c env cfg s).deadline = some (t + n - 1200)) ?_ fun t => ?_
  · intro s hs
    have ho : obs c env cfg { s with world := (env.now s.world).2, log := s.log ++ [.clock (env.now s.world).1] } =
        { obs c env cfg s with deadline := some ((env.now s.world).1 + n - 1200) } := by
      have h1 := hs.1.negotiating
      have h2 := hs.2
      unfold obs at h1 h2 ⊢
      rw [observe_append]
      simp only [see, h1, h2, if_true]
    refine ⟨⟨accepted_snoc c env cfg hs.1.accepted (by intro _ _ _ _ _ he; cases he), hs.1.noExpiry, ?_, ?_⟩, ?_⟩
    · rw [ho]; exact hs.1.negotiating
    · rw [ho]; exact hs.1.good
    · rw [ho]
  refine Triple.bind (R := fun _ s => Accepted c cfg asked env.int s.log ∧
      s.expireAt = some (t + n - 1200) ∧ (obs c env cfg s).deadline = some (t + n - 1200) ∧
      (obs c env cfg s).badKey = false) ?_ fun _ => ?_
  · exact Triple.modify fun s hs => ⟨hs.1.accepted, rfl, hs.2, hs.1.good⟩
  refine Triple.bind (R := fun ses s => Accepted c cfg asked env.int s.log ∧
      s.expireAt = some (t + n - 1200) ∧ (obs c env cfg s).deadline = some (t + n - 1200) ∧
      (obs c env cfg s).badKey = false ∧ (obs c env cfg s).negotiating = false ∧ (obs c env cfg s).fresh = true ∧
      (obs c env cfg s).key = some ses ∧ ses.iv.length = 16) ?_ fun ses => ?_
  · intro s hs
    obtain ⟨h1, h2, h3, h4⟩ := hs
    unfold openKey
    cases hk : (env.openKey key s.world).bind Session.make with
    | none =>
      simp only
      refine ⟨accepted_snoc c env cfg h1 (by intro _ _ _ _ _ he; cases he), ?_⟩
      intro _ d _ hb
      exfalso
      unfold obs at hb
      rw [observe_append] at hb
      simp [see] at hb
    | some ses =>
      simp only
      have hlen : ses.iv.length = 16 := by
        cases hb : env.openKey key s.world with
        | none => rw [hb] at hk; cases hk
        | some b =>
          rw [hb] at hk
          simp only [Option.bind_some, Session.make] at hk
          split at hk
          · cases hk
            rename_i hl
            simp only [List.length_drop, hl]
          · cases hk
      have ho : obs c env cfg { s with log := s.log ++ [.opened (some ses)] } =
          { obs c env cfg s with negotiating := false, key := some ses, fresh := true } := by
        unfold obs
        rw [observe_append]
        rfl
      rw [ho]
      exact ⟨accepted_snoc c env cfg h1 (by intro _ _ _ _ _ he; cases he), h2, h3, h4, rfl, rfl, rfl, hlen⟩
  refine Triple.modify fun s hs => ?_
  obtain ⟨h1, h2, h3, h4, h5, h6, h7, h8⟩ := hs
  refine ⟨⟨h1, ?_⟩, ⟨by simp, _, h2, fun _ => Or.inl h6⟩, rfl⟩
  intro _ d hd _
  have : d = t + n - 1200 := by
    have : some d = some (t + n - 1200) := by rw [← hd]; exact h2
    simpa using this
  subst this
  exact ⟨⟨ses, rfl, h7, h8⟩, h3, h5, by simp⟩

theorem performHandshake_spec {asked : Bytes → Prop} :
    Triple (Inv c env cfg asked) (performHandshake env)
      (fun _ s => Inv c env cfg asked s ∧ Checked c env cfg s ∧ s.phase = .loginRequired)
      (fun _ s => Inv c env cfg asked s) := by
  unfold performHandshake
  refine Triple.bind (R := fun _ s => Accepted c cfg asked env.int s.log ∧ s.expireAt = none) ?_ fun _ => ?_
  · exact Triple.modify fun s hs => ⟨hs.accepted, rfl⟩
  refine Triple.bind (R := fun _ s => Negotiating c env cfg asked s) ?_ fun r => finishHandshake_spec c env cfg r
  intro s hs
  unfold post
  have ha : Accepted c cfg asked env.int (s.log ++ [.post .handshake .app .handshake none
      (env.post .app .handshake none s.world).1]) := by
    refine accepted_snoc c env cfg hs.1 ?_
    intro what url body ck out he _
    cases he
    exact ⟨by simp, by simp⟩
  cases hp : (env.post .app .handshake none s.world).1 with
  | error e =>
    rw [hp] at ha
    exact Inv.of_noExpiry c env cfg ha hs.2
  | ok r =>
    rw [hp] at ha
    refine ⟨ha, hs.2, ?_, ?_⟩
    · simp only [obs]; rw [observe_append]; rfl
    · simp only [obs]; rw [observe_append]; rfl

theorem ensureHandshake_spec {asked : Bytes → Prop} :
    Triple (Inv c env cfg asked) (ensureHandshake env)
      (fun _ s => Inv c env cfg asked s ∧ Checked c env cfg s) (fun _ s => Inv c env cfg asked s) := by
  unfold ensureHandshake
  refine Triple.bind (R := fun b s => Inv c env cfg asked s ∧ (b = false → Checked c env cfg s)) ?_ fun b => ?_
  · intro s hs
    unfold needsHandshake
    rw [bind_apply, get_apply]
    simp only
    split
    · rename_i heq
      split at heq
      · cases heq; exact ⟨hs, by simp⟩
      · rename_i hph
        unfold sessionExpired at heq
        rw [bind_apply, get_apply] at heq
        simp only at heq
        cases hx : s.expireAt with
        | none => rw [hx] at heq; cases heq; exact ⟨hs, by simp⟩
        | some d =>
          rw [hx] at heq
          simp only at heq
          rw [bind_apply] at heq
          simp only [now, pure_apply, Prod.mk.injEq, Except.ok.injEq] at heq
          obtain ⟨rfl, rfl⟩ := heq
          have hb : ∀ o : Obs, (see c cfg env.int o (.clock (env.now s.world).1)).badKey = o.badKey := by
            intro o; simp only [see]; split <;> rfl
          have ho : (obs c env cfg s).badKey = false → observe c cfg env.int (s.log ++ [.clock (env.now s.world).1]) =
              { obs c env cfg s with now := some (env.now s.world).1 } := by
            intro hbad
            have := (hs.ready hph d hx hbad).idle
            rw [observe_append]
            unfold obs at this ⊢
            simp [see, this]
          refine ⟨⟨accepted_snoc c env cfg hs.accepted (by intro _ _ _ _ _ he; cases he), ?_⟩, ?_⟩
          · intro _ d' hd' hbad
            simp only [obs] at hbad
            rw [observe_append, hb] at hbad
            have hr := hs.ready hph d' hd' hbad
            simp only [obs]
            rw [ho hbad]
            exact ⟨hr.session, hr.deadline, hr.idle, hr.token⟩
          · intro hlive
            refine ⟨hph, d, hx, ?_⟩
            intro hbad
            simp only [obs] at hbad
            rw [observe_append, hb] at hbad
            right
            refine ⟨(env.now s.world).1, ?_, ?_⟩
            · simp only [obs]; rw [ho hbad]
            · simp at hlive; omega
    · rename_i e s' heq
      exfalso
      split at heq
      · cases heq
      · unfold sessionExpired at heq
        rw [bind_apply, get_apply] at heq
        simp only at heq
        cases hx : s.expireAt with
        | none => rw [hx] at heq; cases heq
        | some d => rw [hx] at heq; cases heq
  · cases b with
    | true =>
      refine Triple.conseq (performHandshake_spec c env cfg (asked := asked)) ?_ ?_ ?_
      · intro s h; exact h.1
      · intro _ s h; exact ⟨h.1, h.2.1⟩
      · intro _ s h; exact h
    | false => exact Triple.pure fun s h => ⟨h.1, h.2 rfl⟩

/-! ## Passthrough requests -/

/-- After a passthrough request whose inner answer is `v`: unless that answer says that the session is gone, the session
is as before; a token in it is known to the observer. -/
structure Answered (asked : Bytes → Prop) (v : Json) (s : St σ) : Prop where
  accepted : Accepted c cfg asked env.int s.log
  phase : s.phase ≠ .handshakeRequired
  expiry : ∃ d, s.expireAt = some d ∧ ((obs c env cfg s).badKey = false → refused v = false →
    ((obs c env cfg s).fresh = true ∨ ∃ t, (obs c env cfg s).now = some t ∧ t < d) ∧ Ready s (obs c env cfg s) d ∧
    (successful v = true → ∀ t, result v "token" = some t → (obs c env cfg s).token = some t))

theorem login_exchange {asked : Bytes → Prop} (params : Json)
    (hparams : params = cfg.loginParams ∨ params = cfg.defaultParams) :
    Triple (fun s => Inv c env cfg asked s ∧ Checked c env cfg s ∧ s.phase = .loginRequired)
      (securePassthrough c env cfg .login (loginRequest cfg params))
      (fun v s => Answered c env cfg asked v s ∧ s.phase = .loginRequired) (fun _ s => Inv c env cfg asked s) := by
  intro s hs
  obtain ⟨hi, ⟨hph, d, hd, hlive⟩, hlr⟩ := hs
  unfold securePassthrough
  rw [bind_apply]
  cases hses : s.session with
  | none =>
    unfold currentSession
    rw [hses]
    exact hi
  | some ses =>
    have hcs : currentSession s = (.ok ses, s) := by unfold currentSession; rw [hses]
    rw [hcs]
    simp only
    rw [bind_apply, get_apply]
    simp only
    rw [bind_apply]
    unfold post
    generalize hbody : Body.passthrough (Crypto.encrypt c ses.key ses.iv (loginRequest cfg params)) = body
    generalize hp : env.post (targetUrl s) body s.sessionCookie s.world = out
    obtain ⟨outcome, w⟩ := out
    simp only
    have hready := hi.ready hph d hd
    have hacc : Accepted c cfg asked env.int
        (s.log ++ [.post .login (targetUrl s) body s.sessionCookie outcome]) := by
      refine accepted_snoc c env cfg hi.accepted ?_
      intro what url body' ck out he hbad
      cases he
      refine ⟨by simp, fun _ => ?_⟩
      obtain ⟨⟨ses', h1, h2, h3⟩, h4, _, _⟩ := hready hbad
      have : ses' = ses := by rw [hses] at h1; simpa using h1.symm
      subst this
      refine ⟨ses', _, params, h2, ?_, hbody.symm, hparams, ?_⟩
      · rcases hlive hbad with h | ⟨t, h, hlt⟩
        · exact Or.inl h
        · exact Or.inr ⟨t, d, h, h4, hlt⟩
      · exact Crypto.decrypt_encrypt c _ _ _ h3
    have hb : ∀ o : Obs, (see c cfg env.int o (.post .login (targetUrl s) body s.sessionCookie outcome)).badKey =
        o.badKey := by
      intro o
      simp only [see]
      split
      · unfold seeLogin
        split
        · rfl
        · split
          · rfl
          · split
            · rfl
            · split
              · split <;> rfl
              · rfl
      · rfl
    -- outcomes that tell the observer nothing
    have hquiet : (∀ resp, outcome ≠ .ok (200, resp)) → Inv c env cfg asked
        { s with
          world := w
          log := s.log ++ [.post .login (targetUrl s) body s.sessionCookie outcome] } := by
      intro hq
      have ho : observe c cfg env.int (s.log ++ [.post .login (targetUrl s) body s.sessionCookie outcome]) =
          obs c env cfg s := by
        rw [observe_append]
        cases outcome with
        | error e => rfl
        | ok sr =>
          obtain ⟨st, resp⟩ := sr
          have : st ≠ 200 := by intro he; exact hq resp (by rw [he])
          simp only [see]
          rfl
      refine ⟨hacc, ?_⟩
      intro _ d' hd' hbad
      simp only [obs] at hbad ⊢
      rw [ho] at hbad ⊢
      have hr := hi.ready hph d' hd' hbad
      exact ⟨hr.session, hr.deadline, hr.idle, hr.token⟩
    cases outcome with
    | error e => exact hquiet (by simp)
    | ok sr =>
      obtain ⟨status, resp⟩ := sr
      simp only
      unfold handleAnswer
      by_cases hst : status = 200
      · subst hst
        simp only [ne_eq, not_true_eq_false, if_false]
        have ho : observe c cfg env.int (s.log ++ [.post .login (targetUrl s) body s.sessionCookie (.ok (200, resp))]) =
            seeLogin c cfg (obs c env cfg s) resp := by
          rw [observe_append]; rfl
        rw [bind_apply]
        generalize hs1 : ({ s with
          world := w
          log := s.log ++ [.post .login (targetUrl s) body s.sessionCookie (.ok (200, resp))] } : St σ) = s1
        have hlog1 : s1.log = s.log ++ [.post .login (targetUrl s) body s.sessionCookie (.ok (200, resp))] := by
          rw [← hs1]
        have hph1 : s1.phase = s.phase := by rw [← hs1]
        have hse1 : s1.session = s.session := by rw [← hs1]
        have hex1 : s1.expireAt = s.expireAt := by rw [← hs1]
        have hacc1 : Accepted c cfg asked env.int s1.log := by rw [hlog1]; exact hacc
        have ho1 : obs c env cfg s1 = seeLogin c cfg (obs c env cfg s) resp := by
          unfold obs; rw [hlog1]; exact ho
        have hb1 : (obs c env cfg s1).badKey = (obs c env cfg s).badKey := by
          have := hb (obs c env cfg s)
          rw [ho1, ← this]; rfl
        rcases handleCode_spec resp s1 with ⟨hsucc, hnref, hc⟩ | ⟨hfail, e, hc⟩
        · rw [hc]
          simp only
          rw [bind_apply, lift_apply]
          -- as long as the answer is not understood, nothing changes
          have hnothing : answer c cfg ses resp = none → Inv c env cfg asked s1 := by
            intro hnone
            refine ⟨hacc1, ?_⟩
            intro _ d' hd' hbad
            rw [hb1] at hbad
            rw [hex1] at hd'
            have hr := hi.ready hph d' hd' hbad
            obtain ⟨ses', h1, h2, h3⟩ := hr.session
            have : ses' = ses := by rw [hses] at h1; simpa using h1.symm
            subst this
            have : obs c env cfg s1 = obs c env cfg s := by
              rw [ho1]; unfold seeLogin; rw [hnref, h2]; simp [hnone]
            rw [this]
            exact ⟨⟨ses', by rw [hse1]; exact h1, h2, h3⟩, hr.deadline, hr.idle,
              fun he => absurd he (by rw [hph1, hlr]; simp)⟩
          cases hres : resultOf resp "response" with
          | error e =>
            simp only
            have hnone := resultOf_error hres
            exact hnothing (by unfold answer; rw [hsucc, hnone]; rfl)
          | ok raw =>
            simp only
            rw [lift_apply]
            have hraw := resultOf_ok hres
            cases hop : openResponse c cfg ses raw with
            | error e =>
              simp only
              exact hnothing (openResponse_error c cfg hraw hop)
            | ok v =>
              simp only
              have hans := openResponse_ok c cfg hsucc hraw hop
              refine ⟨⟨hacc1, by rw [hph1]; exact hph, d, by rw [hex1]; exact hd, ?_⟩, by rw [hph1]; exact hlr⟩
              intro hbad hnv
              rw [hb1] at hbad
              have hr := hready hbad
              obtain ⟨ses', h1, h2, h3⟩ := hr.session
              have : ses' = ses := by rw [hses] at h1; simpa using h1.symm
              subst this
              have ho2 : obs c env cfg s1 = (if successful v then
                  match result v "token" with
                  | some t => { obs c env cfg s with token := some t }
                  | none => obs c env cfg s
                  else obs c env cfg s) := by
                have hb2 : ((obs c env cfg s).key.bind fun k => answer c cfg k resp) = some v := by
                  rw [h2]; exact hans
                rw [ho1]; unfold seeLogin; rw [hnref, hb2]
                simp only [Bool.false_eq_true, if_false, hnv]
                rfl
              have hsame : (obs c env cfg s1).fresh = (obs c env cfg s).fresh ∧
                  (obs c env cfg s1).now = (obs c env cfg s).now ∧ (obs c env cfg s1).key = (obs c env cfg s).key ∧
                  (obs c env cfg s1).deadline = (obs c env cfg s).deadline ∧
                  (obs c env cfg s1).negotiating = (obs c env cfg s).negotiating := by
                rw [ho2]
                split
                · split <;> exact ⟨rfl, rfl, rfl, rfl, rfl⟩
                · exact ⟨rfl, rfl, rfl, rfl, rfl⟩
              obtain ⟨e1, e2, e3, e4, e5⟩ := hsame
              refine ⟨?_, ?_, ?_⟩
              · rw [e1, e2]; exact hlive hbad
              · exact ⟨⟨ses', by rw [hse1]; exact h1, by rw [e3]; exact h2, h3⟩, by rw [e4]; exact hr.deadline,
                  by rw [e5]; exact hr.idle, fun he => absurd he (by rw [hph1, hlr]; simp)⟩
              · intro hsv t ht
                rw [ho2, hsv, ht]
                simp
        · rw [hc]
          simp only
          by_cases href : refused resp = true
          · rw [if_pos href]
            exact Inv.of_handshakeRequired c env cfg hacc1 rfl
          · rw [if_neg href]
            refine ⟨hacc1, ?_⟩
            intro _ d' hd' hbad
            rw [hb1] at hbad
            rw [hex1] at hd'
            have hr := hi.ready hph d' hd' hbad
            obtain ⟨ses', h1, h2, h3⟩ := hr.session
            have href' : refused resp = false := by simpa using href
            have : obs c env cfg s1 = obs c env cfg s := by
              rw [ho1]; unfold seeLogin; rw [href', h2]
              simp [answer, hfail]
            rw [this]
            exact ⟨⟨ses', by rw [hse1]; exact h1, h2, h3⟩, hr.deadline, hr.idle,
              fun he => absurd he (by rw [hph1, hlr]; simp)⟩
      · simp only [ne_eq, hst, not_false_eq_true, if_true]
        exact hquiet (by intro r he; cases he; exact hst rfl)

theorem tryLogin_spec {asked : Bytes → Prop} (params : Json)
    (hparams : params = cfg.loginParams ∨ params = cfg.defaultParams) :
    Triple (fun s => Inv c env cfg asked s ∧ Checked c env cfg s ∧ s.phase = .loginRequired)
      (tryLogin c env cfg params)
      (fun _ s => Inv c env cfg asked s ∧ Checked c env cfg s ∧ s.phase = .established)
      (fun _ s => Inv c env cfg asked s) := by
  unfold tryLogin
  refine Triple.bind (login_exchange c env cfg params hparams) fun v => ?_
  refine Triple.bind (R := fun _ s => (Answered c env cfg asked v s ∧ s.phase = .loginRequired) ∧
    refused v = false ∧ successful v = true) ?_ fun _ => ?_
  · intro s hs
    rcases handleCode_spec v s with ⟨h1, h2, h3⟩ | ⟨h1, e, h3⟩
    · rw [h3]; exact ⟨hs, h2, h1⟩
    · rw [h3]
      simp only
      by_cases href : refused v = true
      · rw [if_pos href]
        exact Inv.of_handshakeRequired c env cfg hs.1.accepted rfl
      · rw [if_neg href]
        refine ⟨hs.1.accepted, ?_⟩
        intro _ d hd hbad
        obtain ⟨d', hd', hh⟩ := hs.1.expiry
        have : d = d' := by rw [hd] at hd'; simpa using hd'
        subst this
        exact (hh hbad (by simpa using href)).2.1
  refine Triple.bind (R := fun t s => ((Answered c env cfg asked v s ∧ s.phase = .loginRequired) ∧
    refused v = false ∧ successful v = true) ∧ result v "token" = some t) ?_ fun t => ?_
  · refine Triple.lift (fun t s ht h => ⟨h, resultOf_ok ht⟩) (fun e s _ h => ?_)
    refine ⟨h.1.1.accepted, ?_⟩
    intro _ d hd hbad
    obtain ⟨d', hd', hh⟩ := h.1.1.expiry
    have : d = d' := by rw [hd] at hd'; simpa using hd'
    subst this
    exact (hh hbad h.2.1).2.1
  · refine Triple.modify fun s hs => ?_
    obtain ⟨⟨⟨hans, _⟩, hnref, hsucc⟩, htok⟩ := hs
    obtain ⟨d, hd, hh⟩ := hans.expiry
    refine ⟨⟨hans.accepted, ?_⟩, ⟨by simp, d, hd, fun hbad => (hh hbad hnref).1⟩, rfl⟩
    intro _ d' hd' hbad
    have : d = d' := by
      have : some d = some d' := by rw [← hd, ← hd']
      simpa using this
    subst this
    obtain ⟨_, hr, ht⟩ := hh hbad hnref
    exact ⟨hr.session, hr.deadline, hr.idle, fun _ => ⟨t, rfl, ht hsucc t htok⟩⟩

theorem ensureLogin_spec {asked : Bytes → Prop} :
    Triple (fun s => Inv c env cfg asked s ∧ Checked c env cfg s) (ensureLogin c env cfg)
      (fun _ s => Inv c env cfg asked s ∧ Checked c env cfg s ∧ s.phase = .established)
      (fun _ s => Inv c env cfg asked s) := by
  have hlogin : Triple (fun s => Inv c env cfg asked s ∧ Checked c env cfg s ∧ s.phase = .loginRequired)
      (performLogin c env cfg)
      (fun _ s => Inv c env cfg asked s ∧ Checked c env cfg s ∧ s.phase = .established)
      (fun _ s => Inv c env cfg asked s) := by
    unfold performLogin
    refine Triple.tryExcept (tryLogin_spec c env cfg _ (Or.inl rfl)) fun ex => ?_
    split
    · refine Triple.tryExcept (R := fun _ s => Inv c env cfg asked s) ?_ fun ex' => ?_
      · split
        · exact Triple.raise fun s hs => hs
        · exact Triple.bind (performHandshake_spec c env cfg) fun _ => tryLogin_spec c env cfg _ (Or.inr rfl)
      · split <;> exact Triple.raise fun s hs => hs
    · exact Triple.raise fun s hs => hs
  unfold ensureLogin
  intro s hs
  rw [bind_apply, get_apply]
  simp only
  by_cases hph : s.phase = .established
  · rw [if_neg (by simp [hph])]
    exact ⟨hs.1, hs.2, hph⟩
  · rw [if_pos (by simpa using hph)]
    have hlr : s.phase = .loginRequired := by
      have := hs.2.1
      cases h : s.phase with
      | handshakeRequired => exact absurd h this
      | loginRequired => rfl
      | established => exact absurd h hph
    refine Triple.tryExcept (R := fun _ s => Inv c env cfg asked s) hlogin (fun ex => ?_) s ⟨hs.1, hs.2, hlr⟩
    split
    · refine Triple.bind (R := fun _ s => Inv c env cfg asked s) ?_ fun _ => Triple.raise fun s hs => hs
      exact Triple.modify fun s hs => Inv.of_handshakeRequired c env cfg hs.accepted rfl
    · exact Triple.raise fun s hs => hs

theorem request_inv {asked : Bytes → Prop} (request : Bytes) (hreq : asked request) :
    Triple (fun s => Inv c env cfg asked s ∧ Checked c env cfg s ∧ s.phase = .established)
      (securePassthrough c env cfg .request request)
      (fun _ s => Inv c env cfg asked s) (fun _ s => Inv c env cfg asked s) := by
  intro s hs
  obtain ⟨hi, ⟨hph, d, hd, hlive⟩, hest⟩ := hs
  unfold securePassthrough
  rw [bind_apply]
  cases hses : s.session with
  | none =>
    unfold currentSession
    rw [hses]
    exact hi
  | some ses =>
    have hcs : currentSession s = (.ok ses, s) := by unfold currentSession; rw [hses]
    rw [hcs]
    simp only
    rw [bind_apply, get_apply]
    simp only
    rw [bind_apply]
    unfold post
    generalize hbody : Body.passthrough (Crypto.encrypt c ses.key ses.iv request) = body
    generalize hp : env.post (targetUrl s) body s.sessionCookie s.world = out
    obtain ⟨outcome, w⟩ := out
    simp only
    have hready := hi.ready hph d hd
    have hacc : Accepted c cfg asked env.int
        (s.log ++ [.post .request (targetUrl s) body s.sessionCookie outcome]) := by
      refine accepted_snoc c env cfg hi.accepted ?_
      intro what url body' ck out he hbad
      cases he
      refine ⟨fun _ => ?_, by simp⟩
      obtain ⟨⟨ses', h1, h2, h3⟩, h4, _, h5⟩ := hready hbad
      have : ses' = ses := by rw [hses] at h1; simpa using h1.symm
      subst this
      obtain ⟨t, ht1, ht2⟩ := h5 hest
      refine ⟨ses', t, _, request, h2, ht2, ?_, ?_, hbody.symm, Crypto.decrypt_encrypt c _ _ _ h3, hreq⟩
      · unfold targetUrl; rw [hest, ht1]
      · rcases hlive hbad with h | ⟨t, h, hlt⟩
        · exact Or.inl h
        · exact Or.inr ⟨t, d, h, h4, hlt⟩
    generalize hs1 : ({ s with
      world := w
      log := s.log ++ [.post .request (targetUrl s) body s.sessionCookie outcome] } : St σ) = s1
    have hlog1 : s1.log = s.log ++ [.post .request (targetUrl s) body s.sessionCookie outcome] := by rw [← hs1]
    have hacc1 : Accepted c cfg asked env.int s1.log := by rw [hlog1]; exact hacc
    have hinv : (∀ resp, outcome = .ok (200, resp) → refused resp = false) → Inv c env cfg asked s1 := by
      intro hq
      have ho : obs c env cfg s1 = obs c env cfg s := by
        unfold obs
        rw [hlog1, observe_append]
        simp only [see]
        split
        · rename_i resp
          rw [hq resp rfl]; rfl
        · rfl
      refine ⟨hacc1, ?_⟩
      rw [ho]
      rw [← hs1]
      intro _ d' hd' hbad
      have hr := hi.ready hph d' hd' hbad
      exact ⟨hr.session, hr.deadline, hr.idle, hr.token⟩
    cases outcome with
    | error e => exact hinv (by simp)
    | ok sr =>
      obtain ⟨status, resp⟩ := sr
      simp only
      unfold handleAnswer
      by_cases hst : status = 200
      · subst hst
        simp only [ne_eq, not_true_eq_false, if_false]
        rw [bind_apply]
        rcases handleCode_spec resp s1 with ⟨_, hnref, hc⟩ | ⟨_, e, hc⟩
        · rw [hc]
          simp only
          have := hinv (by intro r hr; cases hr; exact hnref)
          rw [bind_apply, lift_apply]
          cases resultOf resp "response" with
          | error e => exact this
          | ok raw =>
            simp only
            rw [lift_apply]
            cases openResponse c cfg ses raw <;> exact this
        · rw [hc]
          simp only
          by_cases href : refused resp = true
          · rw [if_pos href]
            exact Inv.of_handshakeRequired c env cfg hacc1 rfl
          · rw [if_neg href]
            exact hinv (by intro r hr; cases hr; simpa using href)
      · simp only [ne_eq, hst, not_false_eq_true, if_true]
        exact hinv (by intro r he; cases he; exact absurd rfl hst)

theorem send_inv {asked : Bytes → Prop} (request : Bytes) (hreq : asked request) {s : St σ}
    (hi : Inv c env cfg asked s) : Inv c env cfg asked (send c env cfg request s).2 := by
  have h : Triple (Inv c env cfg asked) (send c env cfg request) (fun _ s => Inv c env cfg asked s)
      (fun _ s => Inv c env cfg asked s) := by
    unfold send
    refine Triple.bind (R := fun _ s => Inv c env cfg asked s) ?_ fun _ =>
      Triple.bind (ensureHandshake_spec c env cfg) fun _ =>
      Triple.bind (ensureLogin_spec c env cfg) fun _ => request_inv c env cfg request hreq
    refine Triple.modify fun s hs => ?_
    have ho : observe c cfg env.int (s.log ++ [.call]) = { obs c env cfg s with fresh := false, now := none } := by
      rw [observe_append]; rfl
    refine ⟨accepted_snoc c env cfg hs.accepted (by intro _ _ _ _ _ he; cases he), ?_⟩
    intro hph d hd hbad
    simp only [obs] at hbad ⊢
    rw [ho] at hbad ⊢
    have hr := hs.ready hph d hd hbad
    exact ⟨hr.session, hr.deadline, hr.idle, hr.token⟩
  have := h s hi
  revert this
  cases send c env cfg request s with
  | mk r s' => cases r <;> exact fun h => h

theorem reset_inv {asked : Bytes → Prop} {s : St σ} (hi : Inv c env cfg asked s) :
    Inv c env cfg asked (reset s).2 :=
  Inv.of_handshakeRequired c env cfg
    (accepted_snoc c env cfg hi.accepted (by intro _ _ _ _ _ he; cases he)) rfl

end Kasa.Aes
