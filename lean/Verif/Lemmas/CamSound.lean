import Verif.Lemmas.CamCalm
/-!
# What stays true of a camera transport whatever happens, and its first request when nothing goes wrong any more
-/

namespace Kasa.CamEndToEnd
open PyM SslAes SslAesSpec
open EndToEnd (Program)

/-- The name in use, and the way of logging in, are possible with the device. -/
structure Fit (d : Device) (cfg : Config) {σ : Type} (s : St σ) : Prop where
  named : Named d cfg s.username
  less : s.sendSecure = false → d.secure = false

/-- Fit, and what is needed for a request is there after a login. -/
structure Sound (d : Device) (cfg : Config) {σ : Type} (s : St σ) : Prop extends Fit d cfg s where
  secure : s.phase = .established → s.sendSecure = true →
    ∃ key pwd nonce k, s.session = some key ∧ s.pwdHash = some pwd ∧ s.localNonce = some nonce ∧ s.seq = .num k
  plain : s.phase = .established → s.sendSecure = false → ∃ t, s.token = some t

/-- Fit, during a login. -/
structure Negotiating (d : Device) (cfg : Config) {σ : Type} (s : St σ) : Prop extends Fit d cfg s where
  phase : s.phase = .handshakeRequired

theorem Negotiating.sound {d : Device} {cfg : Config} {σ : Type} {s : St σ} (hn : Negotiating d cfg s) : Sound d cfg s :=
  ⟨hn.toFit, fun he => (by rw [hn.phase] at he; cases he), fun he => (by rw [hn.phase] at he; cases he)⟩

section
variable {α : Type} (c : BlockCipher) (h : Hashes) (d : Device) (lib : JsonText.Lib) (p : Program α) (x : Chance) (cfg : Config)

theorem Negotiating.next {d : Device} {cfg : Config} {s : St (World α)} (hs : Negotiating d cfg s) (w : World α) (log : List Ev) :
    Negotiating d cfg { s with world := w, log := log } := ⟨⟨hs.named, hs.less⟩, hs.phase⟩

theorem drawNonce_fit : Triple (Negotiating d cfg) (drawNonce (network c h d cfg lib p x)) (fun _ => Negotiating d cfg)
    (fun _ => Negotiating d cfg) := fun _ hs => ⟨⟨hs.named, hs.less⟩, hs.phase⟩

theorem probe_fit (hx : x.Fair) (user : String) (nonce : Bytes) :
    Triple (Negotiating d cfg) (probe (network c h d cfg lib p x) user nonce)
      (fun r s => Negotiating d cfg s ∧ (r.get? "error_code" = some (.num (-40413)) → d.knows user = true)) (fun _ => Negotiating d cfg) := by
  intro s hs
  unfold probe
  rw [bind_apply]
  unfold post
  have henv : (network c h d cfg lib p x).post .app (.probe user nonce) none s.world =
    exchange c h d cfg lib p x .app (.probe user nonce) none s.world := rfl
  rw [henv]
  have h2 := fun b w' => exchange_ok c h d lib p x cfg hx (url := .app) (body := .probe user nonce) (tag := none) (b := b) (w := s.world) (w' := w')
  revert h2
  generalize exchange c h d cfg lib p x .app (.probe user nonce) none s.world = X
  obtain ⟨o, w'⟩ := X
  intro h2
  cases o with
  | error e => exact hs.next _ _
  | ok r =>
    obtain ⟨st, b⟩ := r
    simp only
    by_cases h200 : st = 200
    · subst h200
      simp only [ne_eq, not_true_eq_false, if_false]
      refine ⟨hs.next _ _, fun hb => ?_⟩
      obtain ⟨w1, -, h3, -⟩ := h2 b w' rfl
      cases hk : d.knows user with
      | true => rfl
      | false =>
        simp only [handle, hk, if_true] at h3
        have := hx.denial w1.count
        rw [h3] at this
        exact absurd hb (this rfl)
    · simp only [ne_eq, h200, not_false_eq_true, if_true]
      exact hs.next _ _

theorem lessLogin_fit (hx : x.Fair) (user pw : String) :
    Triple (Negotiating d cfg) (lessSecureLogin h (network c h d cfg lib p x) cfg user pw)
      (fun done s => Negotiating d cfg s ∧ (done = true → d.knows user = true ∧ s.sendSecure = false ∧ ∃ t, s.token = some t))
      (fun _ => Negotiating d cfg) := by
  intro s hs
  unfold lessSecureLogin
  rw [bind_apply]
  unfold post
  generalize hb : Body.md5Login user (md5Hex h (cfg.encode pw)) = body
  have henv : (network c h d cfg lib p x).post .app body none s.world = exchange c h d cfg lib p x .app body none s.world := rfl
  rw [henv]
  have h2 := fun b w' => exchange_ok c h d lib p x cfg hx (url := .app) (body := body) (tag := none) (b := b) (w := s.world) (w' := w')
  revert h2
  generalize exchange c h d cfg lib p x .app body none s.world = X
  obtain ⟨o, w'⟩ := X
  intro h2
  cases o with
  | error e => exact hs.next _ _
  | ok r =>
    simp only
    generalize s.log ++ _ = log
    have hgen : r.1 = 200 → AesSpec.successful r.2 = true → d.knows user = true ∧ d.secure = false := by
      intro h200 hsuc
      obtain ⟨st, b⟩ := r
      simp only at h200 hsuc
      subst h200
      obtain ⟨w1, -, h3, -⟩ := h2 b w' rfl
      rw [← hb] at h3
      simp only [handle] at h3
      split at h3
      · next hcond => exact ⟨hcond.2.1, hcond.1⟩
      · have h3 : x.refusal w1.count = (200, b) := h3
        have := hx.refusal w1.count
        rw [h3] at this
        rw [this rfl] at hsuc
        cases hsuc
    have hno : ∀ s : St (World α), Negotiating d cfg s → Negotiating d cfg s ∧
        (false = true → d.knows user = true ∧ s.sendSecure = false ∧ ∃ t, s.token = some t) := fun _ hs => ⟨hs, fun h => nomatch h⟩
    unfold finishLessSecure
    by_cases h200 : r.1 ≠ 200
    · rw [if_pos h200]; exact hs.next _ _
    rw [if_neg h200, bind_apply, lift_apply]
    have h200 : r.1 = 200 := by omega
    cases hcode : getOpt r.2 "error_code" with
    | error e => exact hs.next _ _
    | ok code =>
      simp only
      by_cases hok : code = some (.num 0) ∨ code = some (.bool false)
      · rw [if_pos hok]
        have hsuc : AesSpec.successful r.2 = true := by
          cases hr : r.2 with
          | obj kvs =>
            rw [hr] at hcode
            have hcode : Dict.get? kvs "error_code" = code := by unfold getOpt at hcode; exact Except.ok.inj hcode
            have : (Json.obj kvs).get? "error_code" = code := hcode
            unfold AesSpec.successful
            rw [this]
            rcases hok with rfl | rfl <;> rfl
          | _ => rw [hr] at hcode; cases hcode
        obtain ⟨g1, g2⟩ := hgen h200 hsuc
        rw [bind_apply, lift_apply]
        cases getDict r.2 "result" with
        | error e => exact hs.next _ _
        | ok res =>
          simp only
          rw [bind_apply, lift_apply]
          cases getOpt res "stok" with
          | error e => exact hs.next _ _
          | ok stok =>
            cases stok with
            | none => exact hno _ (hs.next _ _)
            | some t =>
              simp only
              by_cases ht : t.truthy = true
              · rw [if_pos ht]
                exact ⟨⟨⟨hs.named, fun _ => g2⟩, hs.phase⟩, fun _ => ⟨g1, rfl, t, rfl⟩⟩
              · rw [if_neg ht]
                exact hno _ (hs.next _ _)
      · rw [if_neg hok]
        exact hno _ (hs.next _ _)

/-- After the probes. -/
def FitEnd (f : Option Found) (s : St (World α)) : Prop :=
  match f with
  | none => Sound d cfg s
  | some _ => Negotiating d cfg s

theorem defaultProbe_fit (hx : x.Fair) (first : Option (Bytes × Json)) :
    Triple (Negotiating d cfg) (defaultProbe h (network c h d cfg lib p x) cfg first) (FitEnd d cfg) (fun _ => Negotiating d cfg) := by
  unfold defaultProbe
  have hfound : ∀ nonce, Triple (Negotiating d cfg) (lift (firstFound nonce first) >>= fun found => pure (some found)) (FitEnd (α := α) d cfg)
      (fun _ => Negotiating d cfg) := fun nonce =>
    Triple.bind (R := fun _ => Negotiating d cfg) (Triple.lift (fun _ _ _ hs => hs) (fun _ _ _ hs => hs)) fun f => Triple.pure fun s hs => hs
  refine Triple.bind (drawNonce_fit c h d lib p x cfg) fun nonce => ?_
  refine Triple.bind (probe_fit c h d lib p x cfg hx _ nonce) fun resp => ?_
  refine Triple.bind (R := fun offers s => Negotiating d cfg s ∧ (offers = true → d.knows cfg.defaults.1 = true)) ?_ fun offers => ?_
  · exact Triple.lift (fun b s ha hs => ⟨hs.1, fun hb => hs.2 (offersSecure_spec (hb ▸ ha))⟩) (fun e s _ hs => hs.1)
  split
  · rename_i hoff
    refine Triple.bind (R := fun _ s => Negotiating d cfg s) ?_ fun _ => ?_
    · exact Triple.modify fun s hs => ⟨⟨.inr ⟨rfl, hs.2 hoff⟩, hs.1.less⟩, hs.1.phase⟩
    · exact Triple.pure fun s hs => hs
  refine Triple.bind (R := fun _ s => Negotiating d cfg s) ?_ fun less => ?_
  · exact Triple.lift (fun _ s ha hs => hs.1) (fun e s _ hs => hs.1)
  split
  · exact hfound nonce
  refine Triple.bind (R := fun _ s => Negotiating d cfg s) (Triple.get fun s hs => hs) fun s1 => ?_
  refine Triple.bind (lessLogin_fit c h d lib p x cfg hx _ _) fun done => ?_
  split
  · rename_i hd
    refine Triple.bind (R := fun _ s => Sound d cfg s) ?_ fun _ => ?_
    · refine Triple.modify fun s hs => ?_
      obtain ⟨h1, h2, h3⟩ := hs.2 hd
      exact ⟨⟨.inr ⟨rfl, h1⟩, hs.1.less⟩, fun _ he => (by rw [h2] at he; cases he), fun _ _ => h3⟩
    · exact Triple.pure fun s hs => hs
  · exact (hfound nonce).conseq (fun s hs => hs.1) (fun _ _ hq => hq) (fun _ _ he => he)

theorem probes_fit (hx : x.Fair) :
    Triple (Negotiating d cfg) (probes h (network c h d cfg lib p x) cfg) (FitEnd d cfg) (fun _ => Negotiating d cfg) := by
  unfold probes
  refine Triple.bind (R := fun _ => Negotiating d cfg) ?_ fun first => ?_
  · unfold firstProbe
    refine Triple.bind (R := fun _ s => Negotiating d cfg s) (Triple.get fun s hs => hs) fun s1 => ?_
    cases nonEmpty s1.username with
    | none => exact Triple.pure fun s hs => hs
    | some u =>
      refine Triple.bind (drawNonce_fit c h d lib p x cfg) fun nonce => ?_
      exact Triple.bind (probe_fit c h d lib p x cfg hx _ nonce) fun resp => Triple.pure fun s hs => hs.1
  have hdef : Triple (Negotiating d cfg) (do
      let offers ← lift (firstOffers first)
      match offers, first with
      | true, some (nonce, resp) => pure (some ⟨nonce, some invalidNonce, some resp⟩)
      | _, _ => defaultProbe h (network c h d cfg lib p x) cfg first) (FitEnd d cfg) (fun _ => Negotiating d cfg) := by
    refine Triple.bind (R := fun _ => Negotiating d cfg) (Triple.lift (fun _ _ _ hs => hs) (fun _ _ _ hs => hs)) fun offers => ?_
    split
    · exact Triple.pure fun s hs => hs
    · exact defaultProbe_fit c h d lib p x cfg hx first
  refine Triple.bind (R := fun done s => Negotiating d cfg s ∧ (done = true → s.sendSecure = false ∧ ∃ t, s.token = some t)) ?_ fun done => ?_
  · have hno : Triple (Negotiating d cfg) (pure false) (fun done s => Negotiating d cfg s ∧
        (done = true → s.sendSecure = false ∧ ∃ t, s.token = some t)) (fun _ (s : St (World α)) => Negotiating d cfg s) :=
      Triple.pure fun s hs => ⟨hs, fun h => nomatch h⟩
    unfold userLessSecure
    split
    · exact hno
    · split
      · exact hno
      · refine Triple.bind (R := fun _ => Negotiating d cfg) (Triple.lift (fun _ _ _ hs => hs) (fun _ _ _ hs => hs)) fun less => ?_
        split
        · exact hno
        · refine Triple.bind (R := fun _ => Negotiating d cfg) (Triple.lift (fun _ _ _ hs => hs) (fun _ _ _ hs => hs)) fun inner => ?_
          split
          · exact hno
          · refine Triple.bind (R := fun _ s => Negotiating d cfg s) (Triple.get fun s hs => hs) fun s1 => ?_
            exact (lessLogin_fit c h d lib p x cfg hx _ _).conseq (fun _ hs => hs) (fun _ _ hq => ⟨hq.1, fun hd => (hq.2 hd).2⟩) (fun _ _ he => he)
  split
  · rename_i hd
    refine Triple.bind (R := fun _ s => Sound d cfg s) ?_ fun _ => ?_
    · refine Triple.modify fun s hs => ?_
      obtain ⟨h2, h3⟩ := hs.2 hd
      exact ⟨⟨hs.1.named, hs.1.less⟩, fun _ he => (by rw [h2] at he; cases he), fun _ _ => h3⟩
    · exact Triple.pure fun s hs => hs
  · exact hdef.conseq (fun s hs => hs.1) (fun _ _ hq => hq) (fun _ _ he => he)

theorem finishHandshake1_fit (f : Found) :
    Triple (Negotiating d cfg) (finishHandshake1 h cfg f) (fun _ => Negotiating d cfg) (fun _ (s : St (World α)) => Negotiating d cfg s) := by
  unfold finishHandshake1
  refine Triple.bind (R := fun _ s => Negotiating d cfg s) (Triple.get fun s hs => hs) fun s0 => ?_
  split
  · exact Triple.raise fun s hs => hs
  cases f.code with
  | none => exact Triple.raise fun s hs => hs
  | some code =>
    simp only
    refine Triple.bind (R := fun _ => Negotiating d cfg) (Triple.lift (fun _ _ _ hs => hs) (fun _ _ _ hs => hs)) fun bad => ?_
    split
    · refine Triple.bind (R := fun _ => Negotiating d cfg) ?_ fun e => Triple.raise fun s hs => hs
      exact Triple.lift (fun _ s _ hs => hs) (fun e s _ hs => hs)
    cases f.resp with
    | none => exact Triple.raise fun s hs => hs
    | some resp =>
      simp only
      unfold checkProof
      refine Triple.bind (R := fun _ => Negotiating d cfg) (Triple.lift (fun _ _ _ hs => hs) (fun _ _ _ hs => hs)) fun q => ?_
      refine Triple.bind (R := fun _ s => Negotiating d cfg s) (Triple.get fun s hs => hs) fun s1 => ?_
      simp only
      split
      · exact Triple.pure fun s hs => hs
      · split
        · exact Triple.pure fun s hs => hs
        · exact Triple.raise fun s hs => hs

theorem resultOf_num {r : Json} {k : String} {v seq : Json} (h1 : AesSpec.result r k = some v) (h2 : Aes.resultOf r k = .ok seq) : seq = v := by
  unfold AesSpec.result at h1
  unfold Aes.resultOf at h2
  cases hr : r.get? "result" with
  | none => rw [hr] at h1; cases h1
  | some res =>
    rw [hr] at h1 h2
    simp only [Option.bind_some] at h1
    simp only [h1] at h2
    exact (Except.ok.inj h2).symm

theorem handshake2_fit (hx : x.Fair) (nonce server pwd : Bytes) :
    Triple (Negotiating d cfg) (performHandshake2 h (network c h d cfg lib p x) cfg nonce server pwd) (fun _ => Sound d cfg)
      (fun _ => Negotiating d cfg) := by
  intro s hs
  unfold performHandshake2
  rw [bind_apply, get_apply]
  simp only
  rw [bind_apply]
  unfold post
  generalize hb : Body.digestLogin s.username nonce (digestPassword h nonce server pwd) = body
  have henv : (network c h d cfg lib p x).post .app body none s.world = exchange c h d cfg lib p x .app body none s.world := rfl
  rw [henv]
  have h2 := fun b w' => exchange_ok c h d lib p x cfg hx (url := .app) (body := body) (tag := none) (b := b) (w := s.world) (w' := w')
  revert h2
  generalize exchange c h d cfg lib p x .app body none s.world = X
  obtain ⟨o, w'⟩ := X
  intro h2
  cases o with
  | error e => exact hs.next _ _
  | ok r =>
    simp only
    generalize s.log ++ _ = log
    have hgen : r.1 = 200 → AesSpec.successful r.2 = true → ∃ k, AesSpec.result r.2 "start_seq" = some (.num k) := by
      intro h200 hsuc
      obtain ⟨st, b⟩ := r
      simp only at h200 hsuc
      subst h200
      obtain ⟨w1, -, h3, -⟩ := h2 b w' rfl
      have hbad : ∀ n, x.refusal n = (200, b) → False := by
        intro n hr
        have := hx.refusal n
        rw [hr] at this
        rw [this rfl] at hsuc
        cases hsuc
      rw [← hb] at h3
      simp only [handle] at h3
      split at h3
      · exact (hbad _ h3).elim
      · split at h3
        · rw [← (Prod.mk.inj h3).2]
          exact ⟨_, rfl⟩
        · exact (hbad _ h3).elim
    unfold finishHandshake2
    by_cases h200 : r.1 ≠ 200
    · rw [if_pos h200]; exact hs.next _ _
    rw [if_neg h200, bind_apply, lift_apply]
    have h200 : r.1 = 200 := by omega
    cases responseError r.2 with
    | error e => exact hs.next _ _
    | ok code =>
      simp only
      by_cases hcode : code = invalidNonce
      · rw [if_pos hcode]; exact hs.next _ _
      rw [if_neg hcode, bind_apply]
      rcases handleCode_spec r.2 ({ s with world := w', log := log } : St (World α)) with ⟨h1, -, h3⟩ | ⟨-, e, h3⟩
      · rw [h3]
        obtain ⟨k, hk⟩ := hgen h200 h1
        simp only
        rw [bind_apply, lift_apply]
        cases hq : Aes.resultOf r.2 "start_seq" with
        | error e => exact hs.next _ _
        | ok seq =>
          simp only
          rw [bind_apply, modify_apply]
          simp only
          rw [bind_apply, lift_apply]
          cases Aes.resultOf r.2 "stok" with
          | error e => exact ⟨⟨hs.named, hs.less⟩, hs.phase⟩
          | ok stok =>
            refine ⟨⟨hs.named, hs.less⟩, fun _ _ => ⟨_, _, _, k, rfl, rfl, rfl, ?_⟩, fun _ _ => ⟨_, rfl⟩⟩
            exact resultOf_num hk hq
      · rw [h3]
        simp only
        split
        · exact ⟨⟨hs.named, hs.less⟩, rfl⟩
        · exact hs.next _ _

theorem ensureHandshake_sound (hx : x.Fair) :
    Triple (Sound d cfg) (ensureHandshake h (network c h d cfg lib p x) cfg) (fun _ => Sound d cfg) (fun _ => Sound d cfg) := by
  intro s hs
  unfold ensureHandshake
  rw [bind_apply, get_apply]
  simp only
  by_cases hph : s.phase = .handshakeRequired
  · rw [if_pos hph]
    have hall : Triple (Negotiating d cfg) (performHandshake h (network c h d cfg lib p x) cfg) (fun _ => Sound d cfg)
        (fun _ => Negotiating d cfg) := by
      unfold performHandshake
      refine Triple.bind (probes_fit c h d lib p x cfg hx) fun found => ?_
      cases found with
      | none => exact Triple.pure fun s hs => hs
      | some f =>
        refine Triple.bind (finishHandshake1_fit h d cfg f) fun r => ?_
        exact handshake2_fit c h d lib p x cfg hx r.1 r.2.1 r.2.2
    exact (hall.conseq (fun _ hs => hs) (fun _ _ hq => hq) (fun _ _ he => he.sound)) s ⟨hs.toFit, hph⟩
  · rw [if_neg hph]
    exact hs

theorem handleCode_sound (resp : Json) : Triple (Sound d cfg) (handleCode resp) (fun _ => Sound d cfg) (fun _ (s : St (World α)) => Sound d cfg s) := by
  intro s hs
  rcases handleCode_spec resp s with ⟨-, -, h3⟩ | ⟨-, e, h3⟩
  · rw [h3]; exact hs
  · rw [h3]
    simp only
    split
    · exact (Negotiating.sound ⟨⟨hs.named, hs.less⟩, rfl⟩)
    · exact hs

theorem post_sound (url : Url) (body : Body) (tag : Option Tag) :
    Triple (Sound d cfg) (post (network c h d cfg lib p x) url body tag) (fun _ => Sound d cfg) (fun _ => Sound d cfg) := by
  intro s hs
  unfold post
  cases ((network c h d cfg lib p x).post url body tag s.world).1 with
  | error e => exact ⟨⟨hs.named, hs.less⟩, hs.secure, hs.plain⟩
  | ok r => exact ⟨⟨hs.named, hs.less⟩, hs.secure, hs.plain⟩

theorem send_sound (hx : x.Fair) (request : Bytes) :
    Triple (Sound d cfg) (SslAes.send c h (network c h d cfg lib p x) cfg request) (fun _ => Sound d cfg) (fun _ => Sound d cfg) := by
  unfold SslAes.send
  refine Triple.bind (ensureHandshake_sound c h d lib p x cfg hx) fun _ => ?_
  refine Triple.bind (R := fun _ s => Sound d cfg s) (Triple.get fun s hs => hs) fun s0 => ?_
  have hl : ∀ {β : Type} (e : Except Exc β), Triple (Sound d cfg) (lift e) (fun _ => Sound d cfg) (fun _ (s : St (World α)) => Sound d cfg s) :=
    fun e => Triple.lift (fun _ _ _ hs => hs) (fun _ _ _ hs => hs)
  split
  · unfold securePassthrough
    refine Triple.bind (R := fun _ s => Sound d cfg s) (Triple.get fun s hs => hs) fun s1 => ?_
    refine Triple.bind (hl _) fun ses => ?_
    refine Triple.bind (hl _) fun pwd => ?_
    refine Triple.bind (hl _) fun nonce => ?_
    refine Triple.bind (hl _) fun seq => ?_
    refine Triple.bind (R := fun _ s => Sound d cfg s) ?_ fun _ => ?_
    · refine Triple.modify fun s hs => ⟨⟨hs.named, hs.less⟩, fun h1 h2 => ?_, hs.plain⟩
      obtain ⟨a1, a2, a3, -, a5, a6, a7, -⟩ := hs.secure h1 h2
      exact ⟨a1, a2, a3, _, a5, a6, a7, rfl⟩
    refine Triple.bind (post_sound c h d lib p x cfg _ _ _) fun r => ?_
    unfold handleAnswer
    split
    · exact Triple.raise fun s hs => hs
    · split
      · exact Triple.raise fun s hs => hs
      · exact Triple.bind (handleCode_sound d cfg _) fun _ => hl _
  · unfold sendUnencrypted
    refine Triple.bind (R := fun _ s => Sound d cfg s) (Triple.get fun s hs => hs) fun s1 => ?_
    cases s1.token with
    | none => exact Triple.raise fun s hs => hs
    | some t =>
      refine Triple.bind (post_sound c h d lib p x cfg _ _ _) fun r => ?_
      unfold handlePlain
      split
      · exact Triple.raise fun s hs => hs
      · exact Triple.bind (handleCode_sound d cfg _) fun _ => Triple.pure fun s hs => hs

theorem reset_sound {d : Device} {cfg : Config} {s : St (World α)} (hs : Sound d cfg s) : Sound d cfg (SslAes.reset s).2 :=
  Negotiating.sound ⟨⟨hs.named, hs.less⟩, rfl⟩

theorem start_sound (w : World α) : Sound d cfg (start cfg w) := Negotiating.sound ⟨⟨.inl rfl, fun h => nomatch h⟩, rfl⟩

/-- How a refusal is reported. -/
def Refused (e : Exc) : Prop := (∃ k, e = .retryable k) ∨ ∃ k, e = .auth k

theorem handleCode_refuses {v : Json} (hv : Refuses v) {σ : Type} (s : St σ) :
    ∃ e phase, handleCode v s = (.error e, { s with phase := phase }) ∧ Refused e ∧ ((∃ k, e = .auth k) → phase = .handshakeRequired) := by
  obtain ⟨n, h1, h2⟩ := hv
  cases v with
  | obj kvs =>
    have hk : Dict.get? kvs "error_code" = some (.num n) := h1
    have hdoc : n ∈ CodesSpec.documented := by
      rcases h2 with h2 | h2
      · exact Codes.retryable_known h2
      · exact Codes.authentication_known h2
    have hrep : CodesSpec.reported n = n := if_pos hdoc
    have hne : n ≠ 0 := by
      rintro rfl
      revert h2
      decide
    have hh : handleCode (.obj kvs) s = handleRaw (Dict.get? kvs "error_code") s := rfl
    rw [hh, hk]
    unfold handleRaw
    rw [Codes.readCode_num, hrep]
    simp only [hne, if_false]
    by_cases hr : CodesSpec.Retryable n
    · have : Codes.classify n = .retryable (some n) := if_pos ((Codes.retryable_iff n).2 hr)
      rw [this]
      exact ⟨_, s.phase, rfl, .inl ⟨_, rfl⟩, fun ⟨k, hk⟩ => (nomatch hk)⟩
    · have ha : CodesSpec.Authentication n := h2.resolve_left hr
      have : Codes.classify n = .auth (some n) := by
        unfold Codes.classify
        rw [if_neg (fun h => hr ((Codes.retryable_iff n).1 h)), if_pos ((Codes.authentication_iff n).2 ha)]
      rw [this]
      exact ⟨_, .handshakeRequired, rfl, .inr ⟨_, rfl⟩, fun _ => rfl⟩
  | _ => cases h1

end

/-! ## The first request when nothing goes wrong any more -/

section
variable {α : Type} (c : BlockCipher) (h : Hashes) (d : Device) (lib lib' : JsonText.Lib) (p : Program α)
variable (x : Chance) (creds kept : Option (String × String)) (defaults : String × String) {n : Nat}

/-- A request is answered, or refused without being carried out. -/
def Handled (p : Program α) (n : Nat) (j : Json) (s : St (World α)) (res : Except Exc Json) (s' : St (World α)) : Prop :=
  n ≤ s'.world.count ∧
    ((res = .ok (p.run j s.world.state).1 ∧ s'.world.state = (p.run j s.world.state).2) ∨
      ∃ e, res = .error e ∧ Refused e ∧ s'.world.state = s.world.state ∧ ((∃ k, e = .auth k) → s'.phase = .handshakeRequired))

theorem secure_late (hc : x.CalmFrom n) (hp : ∀ j a, JsonText.Proper (p.run j a).1) (j : Json) (hj : JsonText.Proper j) (s : St (World α))
    (hl : Linked s) (hs : ∃ key pwd nonce k, s.session = some key ∧ s.pwdHash = some pwd ∧ s.localNonce = some nonce ∧ s.seq = .num k)
    (hn : n ≤ s.world.count) :
    let cfg := config lib creds kept defaults
    ∃ res s', securePassthrough c h (network c h d cfg lib' p x) cfg (utf8 (JsonText.dumps lib j)) s = (res, s') ∧ Handled p n j s res s' := by
  intro cfg
  obtain ⟨key, pwd, nonce, k, e1, e2, e3, e4⟩ := hs
  obtain ⟨key', hk', hiv, hw⟩ := hl
  rw [e1] at hk'
  cases hk'
  unfold securePassthrough
  have n1 : need s.session = .ok key := by rw [e1]; rfl
  have n2 : need s.pwdHash = .ok pwd := by rw [e2]; rfl
  have n3 : need s.localNonce = .ok nonce := by rw [e3]; rfl
  have n4 : asInt s.seq = .ok k := by rw [e4]; rfl
  simp only [bind_apply, get_apply, lift_apply, n1, n2, n3, n4, modify_apply]
  unfold post
  generalize some (Tag.mk k _) = tag
  generalize targetUrl s = url
  have henv : ∀ body, (network c h d cfg lib' p x).post url body tag s.world =
    exchange c h d cfg lib' p x url body tag s.world := fun _ => rfl
  simp only [henv, exchange_calm c h d lib' p x cfg hc _ _ _ _ hn]
  have hh : handle c h d cfg lib' p x url (.passthrough (Crypto.encrypt c key.key key.iv (utf8 (JsonText.dumps lib j)))) tag s.world =
        (x.refusal s.world.count, s.world) ∨
      ∃ w', handle c h d cfg lib' p x url (.passthrough (Crypto.encrypt c key.key key.iv (utf8 (JsonText.dumps lib j)))) tag s.world =
        (sealed c lib' key (p.run j s.world.state).1, w') ∧ w'.state = (p.run j s.world.state).2 := by
    simp only [handle]
    split
    · next ses t hses =>
      obtain rfl := hw ses hses
      split
      · simp only [Crypto.decrypt_encrypt c _ _ _ hiv, Option.bind_some, fromUtf8_utf8, JsonText.C70_round_trip lib j hj, hc.plainly _ hn,
          Bool.false_and, Bool.false_eq_true, if_false]
        exact .inr ⟨_, rfl, rfl⟩
      · exact .inl rfl
    · exact .inl rfl
  rcases hh with hh | ⟨w', hh, hst⟩
  · obtain ⟨v, hv1, hv2⟩ := hc.refusal _ hn
    simp only [hh, hv1]
    unfold handleAnswer
    simp only [ne_eq, not_true_eq_false, if_false, (by decide : ¬ (200 : Int) = 500), bind_apply]
    obtain ⟨e, phase, k1, k2, k3⟩ := handleCode_refuses hv2 ({ s with
      seq := .num (k + 1)
      world := { s.world with count := s.world.count + 1 }
      log := s.log ++ [.post url (.passthrough (Crypto.encrypt c key.key key.iv (utf8 (JsonText.dumps lib j)))) tag (.ok (200, v))] } : St (World α))
    rw [k1]
    exact ⟨_, _, rfl, Nat.le_succ_of_le hn, .inr ⟨e, rfl, k2, rfl, k3⟩⟩
  · simp only [hh]
    unfold handleAnswer
    have hok : AesSpec.successful (sealed c lib' key (p.run j s.world.state).1).2 = true := rfl
    have h1 : ¬ (sealed c lib' key (p.run j s.world.state).1).1 = 500 := by simp [sealed]
    have h2 : ¬ (sealed c lib' key (p.run j s.world.state).1).1 ≠ 200 := by simp [sealed]
    simp only [h1, h2, if_false, bind_apply, handleCode_successful hok, lift_apply,
      openAnswer_sealed c lib lib' creds kept defaults hiv _ (hp j s.world.state), cfg]
    exact ⟨_, _, rfl, Nat.le_succ_of_le hn, .inl ⟨rfl, hst⟩⟩

theorem plain_late (cfg : Config) (hc : x.CalmFrom n) (hsucc : Successful p) (j : Json) (hj : JsonText.Proper j) (s : St (World α))
    (hs : ∃ t, s.token = some t) (hn : n ≤ s.world.count) :
    ∃ res s', sendUnencrypted (network c h d cfg lib' p x) (utf8 (JsonText.dumps lib j)) s = (res, s') ∧ Handled p n j s res s' := by
  obtain ⟨t, e1⟩ := hs
  unfold sendUnencrypted
  simp only [bind_apply, get_apply, e1]
  unfold post
  have henv : ∀ body, (network c h d cfg lib' p x).post (.token t) body none s.world =
    exchange c h d cfg lib' p x (.token t) body none s.world := fun _ => rfl
  simp only [henv, exchange_calm c h d lib' p x cfg hc _ _ _ _ hn]
  have hh : handle c h d cfg lib' p x (.token t) (.plain (utf8 (JsonText.dumps lib j))) none s.world = (x.refusal s.world.count, s.world) ∨
      handle c h d cfg lib' p x (.token t) (.plain (utf8 (JsonText.dumps lib j))) none s.world =
        ((200, (p.run j s.world.state).1), { s.world with state := (p.run j s.world.state).2 }) := by
    simp only [handle, fromUtf8_utf8, Option.bind_some, JsonText.C70_round_trip lib j hj]
    split
    · exact .inr rfl
    · exact .inl rfl
  unfold handlePlain
  rcases hh with hh | hh
  · obtain ⟨v, hv1, hv2⟩ := hc.refusal _ hn
    simp only [hh, hv1, ne_eq, not_true_eq_false, if_false, bind_apply]
    obtain ⟨e, phase, k1, k2, k3⟩ := handleCode_refuses hv2 ({ s with
      world := { s.world with count := s.world.count + 1 }
      log := s.log ++ [.post (.token t) (.plain (utf8 (JsonText.dumps lib j))) none (.ok (200, v))] } : St (World α))
    rw [k1]
    exact ⟨_, _, rfl, Nat.le_succ_of_le hn, .inr ⟨e, rfl, k2, rfl, k3⟩⟩
  · simp only [hh, ne_eq, not_true_eq_false, if_false, bind_apply, handleCode_successful (hsucc j s.world.state), pure_apply]
    exact ⟨_, _, rfl, Nat.le_succ_of_le hn, .inl ⟨rfl, rfl⟩⟩

theorem Sound.ready {d : Device} {cfg : Config} {s : St (World α)} (hs : Sound d cfg s) (hn : n ≤ s.world.count)
    (hph : s.phase = .handshakeRequired) : Ready d cfg n s.world.state s :=
  ⟨hn, rfl, hs.named, hs.less, fun he => (by rw [hph] at he; cases he)⟩

/-- A request when nothing goes wrong any more. -/
theorem late_send (hc : x.CalmFrom n) (ho : Owned h d (config lib creds kept defaults)) (hp : ∀ j a, JsonText.Proper (p.run j a).1)
    (hsucc : d.secure = false → Successful p) (j : Json) (hj : JsonText.Proper j) (s : St (World α)) (hg : Good s)
    (hs : Sound d (config lib creds kept defaults) s) (hn : n ≤ s.world.count) :
    let cfg := config lib creds kept defaults
    ∃ res s', SslAes.send c h (network c h d cfg lib' p x) cfg (utf8 (JsonText.dumps lib j)) s = (res, s') ∧ Handled p n j s res s' := by
  intro cfg
  cases hph : s.phase with
  | handshakeRequired =>
    obtain ⟨s', h1, h2⟩ := ready_send c h d lib lib' p x creds kept defaults s.world.state hc ho hp hsucc j hj s (hs.ready hn hph)
    exact ⟨_, s', h1, h2.time, .inl ⟨rfl, h2.state⟩⟩
  | established =>
    have he : ensureHandshake h (network c h d cfg lib' p x) cfg s = (.ok (), s) := by
      unfold ensureHandshake
      simp only [bind_apply, get_apply, hph, reduceCtorEq, if_false]
      rfl
    unfold SslAes.send
    simp only [bind_apply, he, get_apply]
    cases hb : s.sendSecure with
    | true =>
      simp only [if_true]
      exact secure_late c h d lib lib' p x creds kept defaults hc hp j hj s (hg hph hb) (hs.secure hph hb) hn
    | false =>
      simp only [Bool.false_eq_true, if_false]
      exact plain_late c h d lib lib' p x cfg hc (hsucc (hs.less hb)) j hj s (hs.plain hph hb) hn

end

end Kasa.CamEndToEnd
