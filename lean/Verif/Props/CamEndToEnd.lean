import Verif.Props.AesEndToEnd
import Verif.Lemmas.SslAes
import Verif.Spec.CamEndToEnd
import Verif.Lemmas.CamFaithful
/-!
# C86: requests over the camera transport are carried out at most once
-/

namespace Kasa.CamEndToEnd
open PyM SslAes SslAesSpec
open EndToEnd (Program Once Sent Message ProperQuery Speaks Faithful proper_wire message_wire)
open AesEndToEnd (unb64_encode)

section
variable {α : Type} (c : BlockCipher) (h : Hashes) (d : Device) (lib lib' : JsonText.Lib) (p : Program α)
variable (x : Chance) (creds kept : Option (String × String)) (defaults : String × String) (cfg : Config)

/-! ## Exchanges -/

/-- What an exchange can come to. -/
theorem exchange_cases (hx : x.Fair) (url : Url) (body : Body) (tag : Option Tag) (w : World α) :
    ∃ w1 : World α, (w1 = w ∨ w1 = w.restarted) ∧
      (((∀ b, (exchange c h d cfg lib p x url body tag w).1 ≠ .ok (200, b)) ∧
          (exchange c h d cfg lib p x url body tag w).2 = { w1 with count := w.count + 1 }) ∨
        (((exchange c h d cfg lib p x url body tag w).1 = .ok (handle c h d cfg lib p x url body tag w1).1 ∨
            ∀ b, (exchange c h d cfg lib p x url body tag w).1 ≠ .ok (200, b)) ∧
          (exchange c h d cfg lib p x url body tag w).2 =
            { (handle c h d cfg lib p x url body tag w1).2 with count := w.count + 1 })) := by
  unfold exchange
  simp only
  have hc : (if x.restart w.count = true then w.restarted else w).count = w.count := by
    split <;> rfl
  have hw : (if x.restart w.count = true then w.restarted else w) = w ∨
      (if x.restart w.count = true then w.restarted else w) = w.restarted := by
    split
    · exact .inr rfl
    · exact .inl rfl
  revert hc hw
  generalize (if x.restart w.count = true then w.restarted else w) = w1
  intro hc hw
  rw [hc]
  have hf := hx.fate w.count
  refine ⟨w1, hw, ?_⟩
  split
  · exact .inr ⟨.inl rfl, rfl⟩
  · next heq => rw [heq] at hf; exact .inl ⟨hf, rfl⟩
  · next heq => rw [heq] at hf; exact .inr ⟨.inr hf, rfl⟩

/-- An answer with status 200 comes from the device. -/
theorem exchange_ok (hx : x.Fair) {url : Url} {body : Body} {tag : Option Tag} {b : Json} {w w' : World α}
    (he : exchange c h d cfg lib p x url body tag w = (.ok (200, b), w')) :
    ∃ w1 : World α, (w1 = w ∨ w1 = w.restarted) ∧ (handle c h d cfg lib p x url body tag w1).1 = (200, b) ∧
      w' = { (handle c h d cfg lib p x url body tag w1).2 with count := w.count + 1 } := by
  obtain ⟨w1, hw, ⟨h1, h2⟩ | ⟨h1 | h1, h2⟩⟩ := exchange_cases c h d lib p x cfg hx url body tag w
  · exact absurd (by rw [he]) (h1 b)
  · rw [he] at h1 h2
    exact ⟨w1, hw, (Except.ok.inj h1).symm, h2⟩
  · exact absurd (by rw [he]) (h1 b)

/-- Probes and logins. -/
def Quiet : Body → Prop
  | .passthrough _ | .plain _ => False
  | _ => True

/-- Only requests reach the program. -/
theorem exchange_state (url : Url) {body : Body} (hb : Quiet body) (tag : Option Tag) (w : World α) :
    (exchange c h d cfg lib p x url body tag w).2.state = w.state := by
  have hh : ∀ w : World α, (handle c h d cfg lib p x url body tag w).2.state = w.state := by
    intro w
    unfold handle
    cases body with
    | probe u n => simp only; split
                   · rfl
                   · split <;> rfl
    | digestLogin u n dg =>
      simp only
      split
      · rfl
      · split <;> rfl
    | md5Login u hs => simp only; split <;> rfl
    | passthrough ct => exact hb.elim
    | plain t => exact hb.elim
  unfold exchange
  simp only
  split <;> (simp only [hh]; split <;> rfl)

/-- The device keeps the nonces of a login that has begun, or loses them. -/
theorem exchange_md5 (hx : x.Fair) (url : Url) (user : String) (hash : Bytes) (tag : Option Tag) (w : World α) :
    (exchange c h d cfg lib p x url (.md5Login user hash) tag w).2.pending = w.pending ∨
      (exchange c h d cfg lib p x url (.md5Login user hash) tag w).2.pending = none := by
  have hh : ∀ w : World α, (handle c h d cfg lib p x url (.md5Login user hash) tag w).2.pending = w.pending := by
    intro w
    simp only [handle]
    split <;> rfl
  obtain ⟨w1, hw, ⟨-, h2⟩ | ⟨-, h2⟩⟩ := exchange_cases c h d lib p x cfg hx url (.md5Login user hash) tag w
  · rw [h2]
    rcases hw with rfl | rfl
    · exact .inl rfl
    · exact .inr rfl
  · rw [h2]
    simp only [hh]
    rcases hw with rfl | rfl
    · exact .inl rfl
    · exact .inr rfl

/-- Requests leave the secure session as it is, apart from the number of the next request, or the device loses it. -/
theorem exchange_session (hx : x.Fair) (url : Url) {body : Body} (hb : ¬ Quiet body) (tag : Option Tag) (w : World α) (ses' : Session)
    (hs : (exchange c h d cfg lib p x url body tag w).2.session = some ses') : ∃ ses, w.session = some ses ∧ ses'.key = ses.key := by
  have hh : ∀ w : World α, (handle c h d cfg lib p x url body tag w).2.session = some ses' →
      ∃ ses, w.session = some ses ∧ ses'.key = ses.key := by
    intro w
    cases body with
    | passthrough ct =>
      simp only [handle]
      split
      · next ses t hses =>
        split
        · split
          · intro h; exact ⟨ses', h, rfl⟩
          · intro h
            simp only [Option.some.injEq] at h
            exact ⟨ses, hses, by rw [← h]⟩
        · intro h; exact ⟨ses', h, rfl⟩
      · intro h; exact ⟨ses', h, rfl⟩
    | plain t =>
      simp only [handle]
      split
      · split <;> (intro h; exact ⟨ses', h, rfl⟩)
      · intro h; exact ⟨ses', h, rfl⟩
    | _ => exact absurd trivial hb
  obtain ⟨w1, hw, ⟨-, h2⟩ | ⟨-, h2⟩⟩ := exchange_cases c h d lib p x cfg hx url body tag w
  · rw [h2] at hs
    rcases hw with rfl | rfl
    · exact ⟨ses', hs, rfl⟩
    · cases hs
  · rw [h2] at hs
    rcases hw with rfl | rfl
    · exact hh _ hs
    · obtain ⟨ses, h3, -⟩ := hh _ hs
      cases h3

/-! ## The handshake -/

/-- During a handshake. -/
def Neg (a : α) (s : St (World α)) : Prop := s.phase = .handshakeRequired ∧ s.world.state = a

/-- The response to the probe with the nonce, if it offers a secure login, is an offer of the device, which has not begun another
login since. -/
def Offered (s : St (World α)) (nonce : Bytes) (resp : Json) : Prop :=
  resp.get? "error_code" = some (.num (-40413)) →
    ∃ sn, resp = offer h d nonce sn ∧ (s.world.pending = some (nonce, sn) ∨ s.world.pending = none)

theorem probe_triple (hx : x.Fair) (a : α) (user : String) (nonce : Bytes) :
    Triple (Neg a) (probe (network c h d cfg lib p x) user nonce) (fun resp s => Neg a s ∧ Offered h d s nonce resp)
      (fun _ s => Neg a s) := by
  rintro s ⟨hph, hst⟩
  unfold probe
  rw [bind_apply]
  unfold post
  have henv : (network c h d cfg lib p x).post .app (.probe user nonce) none s.world =
    exchange c h d cfg lib p x .app (.probe user nonce) none s.world := rfl
  rw [henv]
  have h1 := exchange_state c h d lib p x cfg .app (body := .probe user nonce) trivial none s.world
  have h2 := fun b w' => exchange_ok c h d lib p x cfg hx (url := .app) (body := .probe user nonce) (tag := none) (b := b) (w := s.world) (w' := w')
  revert h1 h2
  generalize exchange c h d cfg lib p x .app (.probe user nonce) none s.world = X
  obtain ⟨o, w'⟩ := X
  intro h1 h2
  cases o with
  | error e => exact ⟨hph, h1.trans hst⟩
  | ok r =>
    obtain ⟨st, b⟩ := r
    simp only
    by_cases h200 : st = 200
    · subst h200
      simp only [ne_eq, not_true_eq_false, if_false]
      refine ⟨⟨hph, h1.trans hst⟩, fun hb => ?_⟩
      obtain ⟨w1, -, h3, h4⟩ := h2 b w' rfl
      show ∃ sn, b = offer h d nonce sn ∧ (w'.pending = _ ∨ w'.pending = none)
      rw [h4]
      simp only [handle] at h3 ⊢
      by_cases hk : d.knows user = false
      · simp only [hk, if_true] at h3
        have := hx.denial w1.count
        rw [h3] at this
        exact absurd hb (this rfl)
      · simp only [hk] at h3 ⊢
        by_cases hs : d.secure = true
        · simp only [hs, if_true] at h3 ⊢
          exact ⟨x.remoteNonce w1.count, (Prod.mk.inj h3).2.symm, .inl rfl⟩
        · simp only [hs] at h3
          have := (Prod.mk.inj h3).2
          rw [← this] at hb
          cases hb
    · simp only [ne_eq, h200, not_false_eq_true, if_true]
      exact ⟨hph, h1.trans hst⟩

theorem drawNonce_triple (a : α) : Triple (Neg a) (drawNonce (network c h d cfg lib p x)) (fun _ => Neg a) (fun _ => Neg a) :=
  fun _ hs => hs

theorem finishLessSecure_triple {P : St (World α) → Prop}
    (hP : ∀ s secure token hash, P s → P { s with sendSecure := secure, token := token, pwdHash := hash }) (hash : Bytes) (r : Int × Json) :
    Triple P (finishLessSecure hash r) (fun done s => P s ∧ (done = true → s.sendSecure = false)) (fun _ => P) := by
  have hno : Triple P (pure false) (fun done s => P s ∧ (done = true → s.sendSecure = false)) (fun _ => P) :=
    Triple.pure fun s hs => ⟨hs, fun hd => by cases hd⟩
  unfold finishLessSecure
  split
  · exact Triple.raise fun s hs => hs
  refine Triple.bind (R := fun _ => P) (Triple.lift (fun _ s _ hs => hs) (fun e s _ hs => hs)) fun code => ?_
  split
  · refine Triple.bind (R := fun _ => P) (Triple.lift (fun _ s _ hs => hs) (fun e s _ hs => hs)) fun res => ?_
    refine Triple.bind (R := fun _ => P) (Triple.lift (fun _ s _ hs => hs) (fun e s _ hs => hs)) fun stok => ?_
    cases stok with
    | none => exact hno
    | some t =>
      simp only
      split
      · exact Triple.bind (R := fun _ s => P s ∧ s.sendSecure = false) (Triple.modify fun s hs => ⟨hP s _ _ _ hs, rfl⟩) fun _ =>
          Triple.pure fun s hs => ⟨hs.1, fun _ => hs.2⟩
      · exact hno
  · exact hno

/-- The less secure login. -/
theorem lessSecureLogin_triple (hx : x.Fair) (a : α) (user pw : String) (nonce : Bytes) (resp : Json) :
    Triple (fun s => Neg a s ∧ Offered h d s nonce resp) (lessSecureLogin h (network c h d cfg lib p x) cfg user pw)
      (fun done s => (Neg a s ∧ Offered h d s nonce resp) ∧ (done = true → s.sendSecure = false)) (fun _ s => Neg a s) := by
  refine Triple.conseq (E' := fun _ s => Neg a s ∧ Offered h d s nonce resp) ?_ (fun _ hs => hs) (fun _ _ hs => hs) (fun _ _ hs => hs.1)
  rintro s ⟨⟨hph, hst⟩, hof⟩
  unfold lessSecureLogin
  rw [bind_apply]
  unfold post
  generalize hb : Body.md5Login user (md5Hex h (cfg.encode pw)) = body
  have hq : Quiet body := by rw [← hb]; trivial
  have henv : (network c h d cfg lib p x).post .app body none s.world = exchange c h d cfg lib p x .app body none s.world := rfl
  rw [henv]
  have h1 := exchange_state c h d lib p x cfg .app hq none s.world
  have h2 := exchange_md5 c h d lib p x cfg hx .app user (md5Hex h (cfg.encode pw)) none s.world
  rw [hb] at h2
  revert h1 h2
  generalize exchange c h d cfg lib p x .app body none s.world = X
  obtain ⟨o, w'⟩ := X
  intro h1 h2
  have hkeep : ∀ s' : St (World α), s'.world = w' → s'.phase = s.phase → Neg a s' ∧ Offered h d s' nonce resp := by
    intro s' e1 e2
    refine ⟨⟨e2.trans hph, by rw [e1]; exact h1.trans hst⟩, fun hc => ?_⟩
    obtain ⟨sn, h3, h4⟩ := hof hc
    refine ⟨sn, h3, ?_⟩
    rw [e1]
    rcases h2 with h2 | h2
    · rw [h2]; exact h4
    · exact .inr h2
  cases o with
  | error e => exact (hkeep { s with world := w', log := s.log ++ [.post .app body none (.error e)] } rfl rfl)
  | ok r => exact finishLessSecure_triple (fun _ _ _ _ hs => hs) _ r _ (hkeep { s with world := w', log := s.log ++ [.post .app body none (.ok r)] } rfl rfl)

/-- The first probe, when there was one. -/
def FirstOk (first : Option (Bytes × Json)) (s : St (World α)) : Prop := ∀ n resp, first = some (n, resp) → Offered h d s n resp

theorem firstProbe_triple (hx : x.Fair) (a : α) : Triple (Neg a) (firstProbe (network c h d cfg lib p x))
    (fun first s => Neg a s ∧ FirstOk h d first s) (fun _ => Neg a) := by
  unfold firstProbe
  refine Triple.bind (R := fun _ => Neg a) (Triple.get fun s hs => hs) fun s0 => ?_
  split
  · exact Triple.pure fun s hs => ⟨hs, fun n resp hf => by cases hf⟩
  · refine Triple.bind (drawNonce_triple c h d lib p x cfg a) fun nonce => ?_
    refine Triple.bind (probe_triple c h d lib p x cfg hx a _ nonce) fun resp => ?_
    refine Triple.pure fun s hs => ⟨hs.1, fun n r hf => ?_⟩
    cases hf
    exact hs.2

theorem userLessSecure_triple (hx : x.Fair) (a : α) (first : Option (Bytes × Json)) :
    Triple (fun s => Neg a s ∧ FirstOk h d first s) (userLessSecure h (network c h d cfg lib p x) cfg first)
      (fun done s => (Neg a s ∧ FirstOk h d first s) ∧ (done = true → s.sendSecure = false)) (fun _ => Neg a) := by
  unfold userLessSecure
  have hno : Triple (fun s : St (World α) => Neg a s ∧ FirstOk h d first s) (pure false)
      (fun done s => (Neg a s ∧ FirstOk h d first s) ∧ (done = true → s.sendSecure = false)) (fun _ => Neg a) :=
    Triple.pure fun s hs => ⟨hs, fun hd => by cases hd⟩
  cases first with
  | none => exact hno
  | some f =>
    obtain ⟨nonce, resp⟩ := f
    simp only
    split
    · exact hno
    refine Triple.bind (R := fun _ s => Neg a s ∧ FirstOk h d (some (nonce, resp)) s) ?_ fun less => ?_
    · exact Triple.lift (fun _ s _ hs => hs) (fun e s _ hs => hs.1)
    split
    · exact hno
    refine Triple.bind (R := fun _ s => Neg a s ∧ FirstOk h d (some (nonce, resp)) s) ?_ fun inner => ?_
    · exact Triple.lift (fun _ s _ hs => hs) (fun e s _ hs => hs.1)
    split
    · exact hno
    refine Triple.bind (R := fun _ s => Neg a s ∧ FirstOk h d (some (nonce, resp)) s) (Triple.get fun s hs => hs) fun s0 => ?_
    refine (lessSecureLogin_triple c h d lib p x cfg hx a _ _ nonce resp).conseq (fun s hs => ⟨hs.1, hs.2 _ _ rfl⟩) ?_ (fun _ _ he => he)
    rintro done s ⟨⟨h1, h2⟩, h3⟩
    refine ⟨⟨h1, fun n r hf => ?_⟩, h3⟩
    cases hf
    exact h2

/-- What is known about the offer found by the probes. -/
def FoundOk (f : Found) (s : St (World α)) : Prop :=
  ∀ resp, f.resp = some resp → f.code = some invalidNonce → noOffer invalidNonce (some resp) = .ok false →
    ∃ sn, resp = offer h d f.nonce sn ∧ (s.world.pending = some (f.nonce, sn) ∨ s.world.pending = none)

theorem firstFound_ok {first : Option (Bytes × Json)} {nonce : Bytes} {f : Found}
    (ho : firstOffers first = .ok false) (hf : firstFound nonce first = .ok f) (s : St (World α)) : FoundOk h d f s := by
  intro resp hr hc hno
  obtain ⟨-, user, hp⟩ := SslAes.firstFound_spec h ⟨none, none, ("", ""), utf8, id, fun _ => none, fun _ => none, fun _ => none⟩ ho hf ({ username := none, world := () } : St Unit) resp hr hc hno
  cases hp

/-- The state after the probes. -/
def ProbesOk (a : α) (found : Option Found) (s : St (World α)) : Prop :=
  match found with
  | none => s.world.state = a ∧ s.phase = .established ∧ s.sendSecure = false
  | some f => Neg a s ∧ FoundOk h d f s

theorem defaultProbe_triple (hx : x.Fair) (a : α) (first : Option (Bytes × Json)) (ho : firstOffers first = .ok false) :
    Triple (Neg a) (defaultProbe h (network c h d cfg lib p x) cfg first) (ProbesOk h d a) (fun _ => Neg a) := by
  unfold defaultProbe
  have hfound : ∀ nonce, Triple (Neg a) (lift (firstFound nonce first) >>= fun found => pure (some found)) (ProbesOk h d a) (fun _ => Neg a) := by
    intro nonce
    refine Triple.bind (R := fun f s => Neg a s ∧ FoundOk h d f s) ?_ fun f => Triple.pure fun s hs => hs
    exact Triple.lift (fun f s hf hs => ⟨hs, firstFound_ok h d ho hf s⟩) (fun e s _ hs => hs)
  refine Triple.bind (drawNonce_triple c h d lib p x cfg a) fun nonce => ?_
  refine Triple.bind (probe_triple c h d lib p x cfg hx a _ nonce) fun resp => ?_
  refine Triple.bind (R := fun offers s => (Neg a s ∧ Offered h d s nonce resp) ∧ offersSecure resp = .ok offers) ?_ fun offers => ?_
  · exact Triple.lift (fun _ s ha hs => ⟨hs, ha⟩) (fun e s _ hs => hs.1)
  split
  · rename_i hoff
    subst hoff
    refine Triple.bind (R := fun _ s => (Neg a s ∧ Offered h d s nonce resp) ∧ offersSecure resp = .ok true) ?_ fun _ => ?_
    · exact Triple.modify fun s hs => hs
    · refine Triple.pure ?_
      rintro s ⟨⟨hn, hp⟩, hof⟩
      refine ⟨hn, fun r hr _ _ => ?_⟩
      simp only [Option.some.injEq] at hr
      subst hr
      exact hp (offersSecure_spec hof)
  refine Triple.bind (R := fun _ s => Neg a s ∧ Offered h d s nonce resp) ?_ fun less => ?_
  · exact Triple.lift (fun _ s ha hs => hs.1) (fun e s _ hs => hs.1.1)
  split
  · exact (hfound nonce).conseq (fun s hs => hs.1) (fun _ _ hq => hq) (fun _ _ he => he)
  refine Triple.bind (R := fun _ s => Neg a s ∧ Offered h d s nonce resp) (Triple.get fun s hs => hs) fun s1 => ?_
  refine Triple.bind (lessSecureLogin_triple c h d lib p x cfg hx a _ _ nonce resp) fun done => ?_
  split
  · rename_i hd
    refine Triple.bind (R := fun _ s => s.world.state = a ∧ s.phase = .established ∧ s.sendSecure = false) ?_ fun _ => ?_
    · exact Triple.modify fun s hs => ⟨hs.1.1.2, rfl, hs.2 hd⟩
    · exact Triple.pure fun s hs => hs
  · exact (hfound nonce).conseq (fun s hs => hs.1.1) (fun _ _ hq => hq) (fun _ _ he => he)

theorem probes_triple (hx : x.Fair) (a : α) :
    Triple (Neg a) (probes h (network c h d cfg lib p x) cfg) (ProbesOk h d a) (fun _ => Neg a) := by
  unfold probes
  refine Triple.bind (firstProbe_triple c h d lib p x cfg hx a) fun first => ?_
  refine Triple.bind (userLessSecure_triple c h d lib p x cfg hx a first) fun done => ?_
  split
  · rename_i hd
    refine Triple.bind (R := fun _ s => s.world.state = a ∧ s.phase = .established ∧ s.sendSecure = false) ?_ fun _ => ?_
    · exact Triple.modify fun s hs => ⟨hs.1.1.2, rfl, hs.2 hd⟩
    · exact Triple.pure fun s hs => hs
  refine Triple.bind (R := fun offers s => (Neg a s ∧ FirstOk h d first s) ∧ firstOffers first = .ok offers) ?_ fun offers => ?_
  · exact Triple.lift (fun _ s ha hs => ⟨hs.1, ha⟩) (fun e s _ hs => hs.1.1)
  cases offers with
  | true =>
    cases first with
    | none =>
      intro s hs
      cases hs.2
    | some f =>
      obtain ⟨nonce, resp⟩ := f
      simp only
      refine Triple.pure ?_
      rintro s ⟨⟨hn, hf⟩, ho⟩
      refine ⟨hn, fun r hr _ _ => ?_⟩
      simp only [Option.some.injEq] at hr
      subst hr
      refine hf nonce resp rfl (offersSecure_spec ?_)
      unfold firstOffers at ho
      simp only at ho
      split at ho
      · exact ho
      · cases ho
  | false =>
    intro s hs
    have := defaultProbe_triple c h d lib p x cfg hx a first hs.2 s hs.1.1
    cases first <;> exact this

theorem hexUpper_length (b : Bytes) : (hexUpper b).length = 2 * b.length := by
  induction b with
  | nil => rfl
  | cons x b ih =>
    have : hexUpper (x :: b) = hexDigit (x.toNat / 16) :: hexDigit (x.toNat % 16) :: hexUpper b := rfl
    rw [this, List.length_cons, List.length_cons, List.length_cons, ih]
    omega

theorem shaHex_length (b : Bytes) : (shaHex h b).length = 64 := by
  unfold shaHex
  rw [hexUpper_length, h.sha256_length]

/-- The device's proof is accepted for a hash of the password only if it is the proof for that hash. -/
theorem sameText_offer (henc : cfg.encode = utf8) {n : Bytes} {sn : String} {pwd : Bytes}
    (hs : sameText cfg (.str ((fromUtf8 (proof h n (utf8 sn) d.stored)).getD "")) (confirmHash h n (utf8 sn) pwd) = true) :
    shaHex h (n ++ pwd ++ utf8 sn) = shaHex h (n ++ d.stored ++ utf8 sn) := by
  unfold sameText at hs
  simp only [henc, beq_iff_eq] at hs
  cases hf : fromUtf8 (proof h n (utf8 sn) d.stored) with
  | none =>
    rw [hf] at hs
    have h1 := congrArg List.length hs
    unfold confirmHash at h1
    simp only [Option.getD_none, List.length_append, shaHex_length] at h1
    have : (utf8 "").length = 0 := rfl
    omega
  | some t =>
    rw [hf] at hs
    simp only [Option.getD_some] at hs
    rw [utf8_of_fromUtf8 hf] at hs
    unfold proof confirmHash at hs
    have h1 : (shaHex h (n ++ d.stored ++ utf8 sn) ++ utf8 sn) ++ n = (shaHex h (n ++ pwd ++ utf8 sn) ++ utf8 sn) ++ n := hs
    rw [List.append_assoc, List.append_assoc (shaHex h (n ++ pwd ++ utf8 sn))] at h1
    exact (List.append_inj_left h1 (by rw [shaHex_length, shaHex_length])).symm

/-- The device has proved that it knows the password. -/
def ProofOk (r : Bytes × Bytes × Bytes) (s : St (World α)) : Prop :=
  ∃ sn, r.2.1 = utf8 sn ∧ (s.world.pending = some (r.1, sn) ∨ s.world.pending = none) ∧
    shaHex h (r.1 ++ r.2.2 ++ r.2.1) = shaHex h (r.1 ++ d.stored ++ r.2.1)

theorem checkProof_triple (henc : cfg.encode = utf8) (a : α) (n : Bytes) (sn : String) :
    Triple (fun s : St (World α) => Neg a s ∧ (s.world.pending = some (n, sn) ∨ s.world.pending = none)) (checkProof h cfg n (offer h d n sn))
      (fun r s => Neg a s ∧ ProofOk h d r s) (fun _ => Neg a) := by
  unfold checkProof
  have hd : deviceProof (offer h d n sn) = .ok (sn, .str ((fromUtf8 (proof h n (utf8 sn) d.stored)).getD "")) := rfl
  rw [hd]
  rintro s ⟨hn, hpe⟩
  rw [bind_apply, lift_apply]
  simp only
  rw [bind_apply, get_apply]
  simp only [henc]
  by_cases h1 : sameText cfg (.str ((fromUtf8 (proof h n (utf8 sn) d.stored)).getD ""))
      (confirmHash h n (utf8 sn) (shaHex h (utf8 (pwdToHash cfg s)))) = true
  · rw [if_pos h1]
    exact ⟨hn, sn, rfl, hpe, sameText_offer h d cfg henc h1⟩
  · rw [if_neg h1]
    by_cases h2 : sameText cfg (.str ((fromUtf8 (proof h n (utf8 sn) d.stored)).getD ""))
        (confirmHash h n (utf8 sn) (md5Hex h (utf8 (pwdToHash cfg s)))) = true
    · rw [if_pos h2]
      exact ⟨hn, sn, rfl, hpe, sameText_offer h d cfg henc h2⟩
    · rw [if_neg h2]
      exact hn

theorem finishHandshake1_triple (henc : cfg.encode = utf8) (a : α) (f : Found) :
    Triple (fun s : St (World α) => Neg a s ∧ FoundOk h d f s) (finishHandshake1 h cfg f)
      (fun r s => Neg a s ∧ ProofOk h d r s) (fun _ => Neg a) := by
  unfold finishHandshake1
  refine Triple.bind (R := fun _ s => Neg a s ∧ FoundOk h d f s) (Triple.get fun s hs => hs) fun s0 => ?_
  split
  · exact Triple.raise fun s hs => hs.1
  cases hcode : f.code with
  | none => exact Triple.raise fun s hs => hs.1
  | some code =>
    simp only
    refine Triple.bind (R := fun bad s => (Neg a s ∧ FoundOk h d f s) ∧ noOffer code f.resp = .ok bad) ?_ fun bad => ?_
    · exact Triple.lift (fun _ s ha hs => ⟨hs, ha⟩) (fun e s _ hs => hs.1)
    split
    · refine Triple.bind (R := fun _ => Neg a) ?_ fun e => Triple.raise fun s hs => hs
      exact Triple.lift (fun _ s _ hs => hs.1.1) (fun e s _ hs => hs.1.1)
    rename_i hbad
    cases hresp : f.resp with
    | none => exact Triple.raise fun s hs => hs.1.1
    | some resp =>
      simp only
      rintro s ⟨⟨hn, hf⟩, hno⟩
      have hbad' : bad = false := by simpa using hbad
      subst hbad'
      have hc : code = invalidNonce := by
        unfold noOffer at hno
        by_cases hc : code ≠ invalidNonce
        · rw [if_pos hc] at hno; cases hno
        · simpa using hc
      subst hc
      obtain ⟨sn, rfl, hpe⟩ := hf resp hresp hcode hno
      exact checkProof_triple h d cfg henc a f.nonce sn s ⟨hn, hpe⟩

/-- The device's session, if it still has one, has the transport's key. -/
def Linked (s : St (World α)) : Prop :=
  ∃ key, s.session = some key ∧ key.iv.length = 16 ∧ ∀ ses, s.world.session = some ses → ses.key = key

theorem sessionKey_iv (n sn hash : Bytes) : (sessionKey h cfg n sn hash).iv.length = 16 := by
  unfold sessionKey
  simp only [List.length_take, h.sha256_length]
  rfl

theorem finishHandshake2_triple (henc : cfg.encode = utf8) (a : α) (nonce server pwd : Bytes) (r : Int × Json)
    (hsha : shaHex h (nonce ++ pwd ++ server) = shaHex h (nonce ++ d.stored ++ server)) :
    Triple (fun s : St (World α) => Neg a s ∧ (r.1 = 200 → AesSpec.successful r.2 = true → ∀ ses, s.world.session = some ses →
        ses.key = sessionKey h cfg nonce server d.stored))
      (finishHandshake2 h cfg nonce server pwd r)
      (fun _ s => s.world.state = a ∧ s.phase = .established ∧ Linked s) (fun _ => Neg a) := by
  unfold finishHandshake2
  split
  · exact Triple.raise fun s hs => hs.1
  next h200 =>
  refine Triple.bind (R := fun _ s => Neg a s ∧ (r.1 = 200 → AesSpec.successful r.2 = true → ∀ ses, s.world.session = some ses →
        ses.key = sessionKey h cfg nonce server d.stored)) ?_ fun code => ?_
  · exact Triple.lift (fun _ s _ hs => hs) (fun e s _ hs => hs.1)
  split
  · exact Triple.raise fun s hs => hs.1
  refine Triple.bind (R := fun _ s => Neg a s ∧ ∀ ses, s.world.session = some ses → ses.key = sessionKey h cfg nonce server d.stored) ?_ fun _ => ?_
  · rintro s ⟨hn, hs⟩
    rcases handleCode_spec r.2 s with ⟨h1, -, h2⟩ | ⟨-, e, h2⟩
    · rw [h2]
      exact ⟨hn, hs (by omega) h1⟩
    · rw [h2]
      simp only
      split
      · exact ⟨rfl, hn.2⟩
      · exact hn
  refine Triple.bind (R := fun _ s => Neg a s ∧ ∀ ses, s.world.session = some ses → ses.key = sessionKey h cfg nonce server d.stored) ?_ fun seq => ?_
  · exact Triple.lift (fun _ s _ hs => hs) (fun e s _ hs => hs.1)
  refine Triple.bind (R := fun _ s => Neg a s ∧ ∀ ses, s.world.session = some ses → ses.key = sessionKey h cfg nonce server d.stored) ?_ fun _ => ?_
  · exact Triple.modify fun s hs => hs
  refine Triple.bind (R := fun _ s => Neg a s ∧ ∀ ses, s.world.session = some ses → ses.key = sessionKey h cfg nonce server d.stored) ?_ fun stok => ?_
  · exact Triple.lift (fun _ s _ hs => hs) (fun e s _ hs => hs.1)
  refine Triple.modify fun s hs => ⟨hs.1.2, rfl, _, rfl, ?_, fun ses h1 => ?_⟩
  · simp only [encryptionToken, List.length_take, h.sha256_length]; rfl
  · rw [hs.2 ses h1]
    unfold sessionKey encryptionToken
    rw [hsha]
    rfl

theorem performHandshake2_triple (hx : x.Fair) (henc : cfg.encode = utf8) (a : α) (r : Bytes × Bytes × Bytes) :
    Triple (fun s => Neg a s ∧ ProofOk h d r s) (performHandshake2 h (network c h d cfg lib p x) cfg r.1 r.2.1 r.2.2)
      (fun _ s => s.world.state = a ∧ s.phase = .established ∧ Linked s) (fun _ => Neg a) := by
  rintro s ⟨⟨hph, hst⟩, sn, hsn, hpe, hsha⟩
  unfold performHandshake2
  rw [bind_apply, get_apply]
  simp only
  rw [bind_apply]
  unfold post
  generalize hb : Body.digestLogin s.username r.1 (digestPassword h r.1 r.2.1 r.2.2) = body
  have hq : Quiet body := by rw [← hb]; trivial
  have henv : (network c h d cfg lib p x).post .app body none s.world = exchange c h d cfg lib p x .app body none s.world := rfl
  rw [henv]
  have h1 := exchange_state c h d lib p x cfg .app hq none s.world
  have h2 := fun b w' => exchange_ok c h d lib p x cfg hx (url := .app) (body := body) (tag := none) (b := b) (w := s.world) (w' := w')
  revert h1 h2
  generalize exchange c h d cfg lib p x .app body none s.world = X
  obtain ⟨o, w'⟩ := X
  intro h1 h2
  cases o with
  | error e => exact ⟨hph, h1.trans hst⟩
  | ok v =>
    refine finishHandshake2_triple h d cfg henc a r.1 r.2.1 r.2.2 v hsha
      { s with world := w', log := s.log ++ [.post .app body none (.ok v)] } ⟨⟨hph, h1.trans hst⟩, fun h200 hsuc ses hses => ?_⟩
    obtain ⟨st, b⟩ := v
    simp only at h200 hsuc hses
    subst h200
    obtain ⟨w1, hw1, h3, h4⟩ := h2 b w' rfl
    rw [h4] at hses
    rw [← hb] at h3 hses
    have hbad : ∀ n, x.refusal n = (200, b) → False := by
      intro n hr
      have := hx.refusal n
      rw [hr] at this
      rw [this rfl] at hsuc
      cases hsuc
    simp only [handle] at h3 hses
    split at h3
    · exact (hbad _ h3).elim
    · next n' sn' hp1 =>
      have hp1 : w1.pending = some (n', sn') := hp1
      split at h3
      · next hcond =>
        simp only [hp1, if_pos hcond, Option.some.injEq] at hses
        rw [← hses]
        have : s.world.pending = some (n', sn') := by
          rcases hw1 with rfl | rfl
          · exact hp1
          · cases hp1
        rw [this] at hpe
        rcases hpe with hpe | hpe
        · simp only [Option.some.injEq, Prod.mk.injEq] at hpe
          obtain ⟨rfl, rfl⟩ := hpe
          rw [hsn]
        · cases hpe
      · exact (hbad _ h3).elim

/-- What holds between two requests. -/
def Good (s : St (World α)) : Prop := s.phase = .established → s.sendSecure = true → Linked s

theorem Neg.good {a : α} {s : St (World α)} (hn : Neg a s) : Good s := fun he => by rw [hn.1] at he; cases he

theorem ensureHandshake_triple (hx : x.Fair) (henc : cfg.encode = utf8) (a : α) :
    Triple (fun s => Good s ∧ s.world.state = a) (ensureHandshake h (network c h d cfg lib p x) cfg)
      (fun _ s => s.phase = .established ∧ Good s ∧ s.world.state = a) (fun _ s => Good s ∧ s.world.state = a) := by
  unfold ensureHandshake
  rintro s ⟨hg, hst⟩
  rw [bind_apply, get_apply]
  simp only
  by_cases hph : s.phase = .handshakeRequired
  · rw [if_pos hph]
    have hall : Triple (Neg a) (performHandshake h (network c h d cfg lib p x) cfg)
        (fun _ s => s.phase = .established ∧ Good s ∧ s.world.state = a) (fun _ => Neg a) := by
      unfold performHandshake
      refine Triple.bind (probes_triple c h d lib p x cfg hx a) fun found => ?_
      cases found with
      | none => exact Triple.pure fun s hs => ⟨hs.2.1, (fun _ h => by rw [hs.2.2] at h; cases h), hs.1⟩
      | some f =>
        refine Triple.bind (finishHandshake1_triple h d cfg henc a f) fun r => ?_
        exact (performHandshake2_triple c h d lib p x cfg hx henc a r).conseq (fun _ hs => hs)
          (fun _ s hs => ⟨hs.2.1, fun _ _ => hs.2.2, hs.1⟩) (fun _ _ he => he)
    exact (hall.conseq (fun _ hs => hs) (fun _ _ hq => hq) (fun _ _ he => ⟨he.good, he.2⟩)) s ⟨hph, hst⟩
  · rw [if_neg hph]
    refine ⟨?_, hg, hst⟩
    cases hp : s.phase with
    | handshakeRequired => exact absurd hp hph
    | established => rfl

/-! ## Requests -/

/-- What the device does with an encrypted request of the user. -/
theorem handle_passthrough (hx : x.Fair) {key : Key} (hiv : key.iv.length = 16) (url : Url) (tag : Option Tag) (j : Json) (hj : JsonText.Proper j)
    (w : World α) (hw : ∀ ses, w.session = some ses → ses.key = key) :
    let r := handle c h d cfg lib' p x url (.passthrough (Crypto.encrypt c key.key key.iv (utf8 (JsonText.dumps lib j)))) tag w
    (r.2.state = w.state ∧ (r.1.1 = 200 → AesSpec.successful r.1.2 = false)) ∨
      (r.2.state = (p.run j w.state).2 ∧
        (r.1 = sealed c lib' key (p.run j w.state).1 ∨ r.1 = (200, (p.run j w.state).1) ∧ unmistakable (p.run j w.state).1 = true)) := by
  intro r
  simp only [r, handle]
  split
  · next ses t hses =>
    obtain rfl := hw ses hses
    split
    · simp only [Crypto.decrypt_encrypt c _ _ _ hiv, Option.bind_some, fromUtf8_utf8, JsonText.C70_round_trip lib j hj]
      refine .inr ⟨trivial, ?_⟩
      by_cases hb : (x.plainly w.count && unmistakable (p.run j w.state).1) = true
      · rw [if_pos hb]
        exact .inr ⟨rfl, by simp only [Bool.and_eq_true] at hb; exact hb.2⟩
      · rw [if_neg hb]
        exact .inl rfl
    · exact .inl ⟨rfl, hx.refusal _⟩
  · exact .inl ⟨rfl, hx.refusal _⟩

/-- What the device does with a plain request of the user. -/
theorem handle_plain (hx : x.Fair) (url : Url) (tag : Option Tag) (j : Json) (hj : JsonText.Proper j) (w : World α) :
    let r := handle c h d cfg lib' p x url (.plain (utf8 (JsonText.dumps lib j))) tag w
    (r.2.state = w.state ∧ (r.1.1 = 200 → AesSpec.successful r.1.2 = false)) ∨
      (r.2.state = (p.run j w.state).2 ∧ r.1 = (200, (p.run j w.state).1)) := by
  intro r
  simp only [r, handle, fromUtf8_utf8, Option.bind_some, JsonText.C70_round_trip lib j hj]
  cases url with
  | app => exact .inl ⟨rfl, hx.refusal _⟩
  | token t =>
    simp only
    split
    · exact .inr ⟨rfl, rfl⟩
    · exact .inl ⟨rfl, hx.refusal _⟩

/-- What an exchange in which the user's request is sent comes to, if the device deals with it in one of two ways. -/
theorem exchange_request (hx : x.Fair) (url : Url) (body : Body) (tag : Option Tag) (a' : α) (w : World α) (Ans : Int × Json → Prop)
    (hh : ∀ w1 : World α, w1 = w ∨ w1 = w.restarted →
      let r := handle c h d cfg lib' p x url body tag w1
      (r.2.state = w.state ∧ (r.1.1 = 200 → AesSpec.successful r.1.2 = false)) ∨ (r.2.state = a' ∧ Ans r.1)) :
    let r := exchange c h d cfg lib' p x url body tag w
    ((r.2.state = w.state ∨ r.2.state = a') ∧ ∀ b, r.1 = .ok (200, b) → AesSpec.successful b = false) ∨
      (r.2.state = a' ∧ ∃ v, r.1 = .ok v ∧ Ans v) := by
  intro r
  obtain ⟨w1, hw, ⟨h1, h2⟩ | ⟨h1, h2⟩⟩ := exchange_cases c h d lib' p x cfg hx url body tag w
  · refine .inl ⟨.inl ?_, fun b hb => absurd hb (h1 b)⟩
    show (exchange c h d cfg lib' p x url body tag w).2.state = _
    rw [h2]
    rcases hw with rfl | rfl <;> rfl
  · have h3 : r.2.state = (handle c h d cfg lib' p x url body tag w1).2.state := by
      show (exchange c h d cfg lib' p x url body tag w).2.state = _
      rw [h2]
    rcases hh w1 hw with ⟨h4, h5⟩ | ⟨h4, h5⟩
    · refine .inl ⟨.inl (h3.trans h4), fun b hb => ?_⟩
      rcases h1 with h1 | h1
      · have hb : (exchange c h d cfg lib' p x url body tag w).1 = .ok (200, b) := hb
        rw [h1] at hb
        have hb := Except.ok.inj hb
        have := h5 (by rw [hb])
        rw [hb] at this
        exact this
      · exact absurd hb (h1 b)
    · rcases h1 with h1 | h1
      · exact .inr ⟨h3.trans h4, _, h1, h5⟩
      · exact .inl ⟨.inr (h3.trans h4), fun b hb => absurd hb (h1 b)⟩

theorem openAnswer_plain {v : Json} (hv : unmistakable v = true) (cfg : Config) (key : Key) :
    openAnswer c cfg key v = .ok v ∨ ∃ e, openAnswer c cfg key v = .error e := by
  unfold openAnswer
  unfold unmistakable AesSpec.result at hv
  cases hr : v.get? "result" with
  | none => exact .inl rfl
  | some r =>
    rw [hr] at hv
    cases r with
    | obj kvs =>
      have : (Json.obj kvs).get? "response" = Dict.get? kvs "response" := rfl
      simp only [Option.bind_some, this, Option.isNone_iff_eq_none] at hv
      simp only [hv]
      exact .inl trivial
    | str s => exact .inl rfl
    | arr l => exact .inl rfl
    | null => exact .inr ⟨_, rfl⟩
    | bool b => exact .inr ⟨_, rfl⟩
    | num n => exact .inr ⟨_, rfl⟩

theorem openAnswer_sealed {key : Key} (hiv : key.iv.length = 16) (v : Json) (hv : JsonText.Proper v) :
    openAnswer c (config lib creds kept defaults) key (sealed c lib' key v).2 = .ok v := by
  unfold sealed openAnswer openResponse config
  have : (Json.obj [("error_code", .num 0), ("result", .obj [("response",
    .str (String.ofList (B64.encode (Crypto.encrypt c key.key key.iv (utf8 (JsonText.dumps lib' v))))))])]).get? "result" =
    some (.obj [("response", .str (String.ofList (B64.encode (Crypto.encrypt c key.key key.iv (utf8 (JsonText.dumps lib' v))))))]) := rfl
  simp only [this]
  have : Dict.get? [("response", Json.str (String.ofList (B64.encode (Crypto.encrypt c key.key key.iv (utf8 (JsonText.dumps lib' v))))))] "response" =
    some (.str (String.ofList (B64.encode (Crypto.encrypt c key.key key.iv (utf8 (JsonText.dumps lib' v)))))) := rfl
  simp only [this, unb64_encode, Option.bind_some, Crypto.decrypt_encrypt c _ _ _ hiv, fromUtf8_utf8, JsonText.C70_round_trip lib' v hv]

/-- The answer to a request is judged by its error code. -/
theorem handleCode_cases (resp : Json) (s : St (World α)) (hg : ∀ phase, Good { s with phase := phase }) :
    (AesSpec.successful resp = true ∧ handleCode resp s = (.ok (), s)) ∨
    (AesSpec.successful resp = false ∧ ∃ e s', handleCode resp s = (.error e, s') ∧ Good s' ∧ s'.world = s.world) := by
  rcases handleCode_spec resp s with ⟨h1, -, h2⟩ | ⟨h1, e, h2⟩
  · exact .inl ⟨h1, h2⟩
  · refine .inr ⟨h1, e, _, h2, ?_⟩
    split
    · exact ⟨hg _, rfl⟩
    · exact ⟨hg s.phase, rfl⟩

/-- How a request of the user comes out. -/
def Outcome (j : Json) (a : α) (res : Except Exc Json) (s' : St (World α)) : Prop :=
  Good s' ∧ ((∃ e, res = .error e ∧ s'.world.state = a) ∨ (∃ e, res = .error e ∧ s'.world.state = (p.run j a).2) ∨
    (res = .ok (p.run j a).1 ∧ s'.world.state = (p.run j a).2))

theorem Outcome.error {p : Program α} {j : Json} {a : α} {e : Exc} {s' : St (World α)} (hg : Good s')
    (hs : s'.world.state = a ∨ s'.world.state = (p.run j a).2) : Outcome p j a (.error e) s' := by
  rcases hs with hs | hs
  · exact ⟨hg, .inl ⟨e, rfl, hs⟩⟩
  · exact ⟨hg, .inr (.inl ⟨e, rfl, hs⟩)⟩

theorem secure_step (hx : x.Fair) (hp : ∀ j a, JsonText.Proper (p.run j a).1) (j : Json) (hj : JsonText.Proper j) (s : St (World α))
    (hl : Linked s) :
    ∃ res s', securePassthrough c h (network c h d (config lib creds kept defaults) lib' p x) (config lib creds kept defaults)
      (utf8 (JsonText.dumps lib j)) s = (res, s') ∧ Outcome p j s.world.state res s' := by
  have hgood : ∀ s' : St (World α), s'.session = s.session → (∀ ses', s'.world.session = some ses' → ∃ ses, s.world.session = some ses ∧ ses'.key = ses.key) →
      ∀ phase, Good { s' with phase := phase } := by
    intro s' h1 h2 phase _ _
    obtain ⟨key, k1, k2, k3⟩ := hl
    refine ⟨key, h1.trans k1, k2, fun ses' hs => ?_⟩
    obtain ⟨ses, h3, h4⟩ := h2 ses' hs
    exact h4.trans (k3 ses h3)
  have hgood0 : ∀ s' : St (World α), s'.session = s.session → s'.world = s.world → Good s' := fun s' h1 h2 =>
    hgood s' h1 (fun ses hs => ⟨ses, by rw [← h2]; exact hs, rfl⟩) s'.phase
  obtain ⟨key, hses, hiv, hw⟩ := hl
  unfold securePassthrough
  have hneed : need s.session = .ok key := by rw [hses]; rfl
  simp only [bind_apply, get_apply, lift_apply, hneed]
  cases need s.pwdHash with
  | error e => exact ⟨_, _, rfl, .error (hgood0 s rfl rfl) (.inl rfl)⟩
  | ok pwd =>
  simp only
  cases need s.localNonce with
  | error e => exact ⟨_, _, rfl, .error (hgood0 s rfl rfl) (.inl rfl)⟩
  | ok nonce =>
  simp only
  cases asInt s.seq with
  | error e => exact ⟨_, _, rfl, .error (hgood0 s rfl rfl) (.inl rfl)⟩
  | ok seq =>
  simp only [modify_apply, post]
  generalize htag : some (Tag.mk seq _) = tag
  generalize targetUrl s = url
  have henv : ∀ body w, (network c h d (config lib creds kept defaults) lib' p x).post url body tag w =
    exchange c h d (config lib creds kept defaults) lib' p x url body tag w := fun _ _ => rfl
  simp only [henv]
  have hr := exchange_request c h d lib' p x (config lib creds kept defaults) hx url
    (.passthrough (Crypto.encrypt c key.key key.iv (utf8 (JsonText.dumps lib j)))) tag (p.run j s.world.state).2 s.world
    (fun r => r = sealed c lib' key (p.run j s.world.state).1 ∨ r = (200, (p.run j s.world.state).1) ∧ unmistakable (p.run j s.world.state).1 = true)
    (by
      intro w1 hw1
      have hst : w1.state = s.world.state := by rcases hw1 with rfl | rfl <;> rfl
      have := handle_passthrough c h d lib lib' p x (config lib creds kept defaults) hx hiv url tag j hj w1 (by
        rcases hw1 with rfl | rfl
        · exact hw
        · intro ses hs; cases hs)
      rw [hst] at this
      exact this)
  have hsess := exchange_session c h d lib' p x (config lib creds kept defaults) hx url
    (body := .passthrough (Crypto.encrypt c key.key key.iv (utf8 (JsonText.dumps lib j)))) (fun h => h) tag s.world
  simp only at hr
  generalize Crypto.encrypt c key.key key.iv (utf8 (JsonText.dumps lib j)) = ct at *
  generalize exchange c h d (config lib creds kept defaults) lib' p x url (.passthrough ct) tag s.world = X at *
  obtain ⟨o, w'⟩ := X
  simp only at hr hsess ⊢
  have hg : ∀ phase log, Good ({ s with phase := phase, seq := .num (seq + 1), world := w', log := log } : St (World α)) :=
    fun phase log => hgood { s with seq := .num (seq + 1), world := w', log := log } rfl hsess phase
  cases o with
  | error e =>
    refine ⟨_, _, rfl, .error (hg s.phase _) ?_⟩
    rcases hr with ⟨h1, -⟩ | ⟨-, v, hv, -⟩
    · exact h1
    · cases hv
  | ok r =>
    simp only
    generalize s.log ++ _ = log
    have hst : w'.state = s.world.state ∨ w'.state = (p.run j s.world.state).2 := by
      rcases hr with ⟨h1, -⟩ | ⟨h1, -⟩
      · exact h1
      · exact .inr h1
    unfold handleAnswer
    by_cases h500 : r.1 = 500
    · rw [if_pos h500]; exact ⟨_, _, rfl, .error (hg s.phase _) hst⟩
    · rw [if_neg h500]
      by_cases h200 : r.1 ≠ 200
      · rw [if_pos h200]; exact ⟨_, _, rfl, .error (hg s.phase _) hst⟩
      · rw [if_neg h200, bind_apply]
        rcases handleCode_cases r.2 ({ s with seq := .num (seq + 1), world := w', log := log } : St (World α)) (fun phase => hg phase log) with
          ⟨g1, g2⟩ | ⟨g1, e, s', g2, g3, g4⟩
        · rw [g2]
          simp only [lift_apply]
          rcases hr with ⟨-, h2⟩ | ⟨h1, v, hv, hans⟩
          · have h200 : r.1 = 200 := by omega
            have := h2 r.2 (by rw [← h200])
            rw [this] at g1
            cases g1
          · have hv : r = v := Except.ok.inj hv
            subst hv
            have key2 : openAnswer c (config lib creds kept defaults) key r.2 = .ok (p.run j s.world.state).1 ∨
                ∃ e, openAnswer c (config lib creds kept defaults) key r.2 = .error e := by
              rcases hans with hans | ⟨hans, hum⟩
              · rw [hans]; exact .inl (openAnswer_sealed c lib lib' creds kept defaults hiv _ (hp j _))
              · rw [hans]; exact openAnswer_plain c hum _ key
            rcases key2 with h3 | ⟨e, h3⟩
            · rw [h3]; exact ⟨_, _, rfl, hg s.phase log, .inr (.inr ⟨rfl, h1⟩)⟩
            · rw [h3]; exact ⟨_, _, rfl, .error (hg s.phase log) hst⟩
        · rw [g2]
          exact ⟨_, _, rfl, .error g3 (by rw [g4]; exact hst)⟩

theorem plain_step (hx : x.Fair) (j : Json) (hj : JsonText.Proper j) (s : St (World α)) (hg : Good s) (hs : s.sendSecure = false) :
    ∃ res s', sendUnencrypted (network c h d cfg lib' p x) (utf8 (JsonText.dumps lib j)) s = (res, s') ∧ Outcome p j s.world.state res s' := by
  unfold sendUnencrypted
  rw [bind_apply, get_apply]
  simp only
  cases s.token with
  | none => exact ⟨_, _, rfl, .error hg (.inl rfl)⟩
  | some t =>
    simp only
    rw [bind_apply]
    unfold post
    have henv : ∀ body w, (network c h d cfg lib' p x).post (.token t) body none w = exchange c h d cfg lib' p x (.token t) body none w :=
      fun _ _ => rfl
    simp only [henv]
    have hr := exchange_request c h d lib' p x cfg hx (.token t) (.plain (utf8 (JsonText.dumps lib j))) none (p.run j s.world.state).2 s.world
      (fun r => r = (200, (p.run j s.world.state).1))
      (by
        intro w1 hw1
        have hst : w1.state = s.world.state := by rcases hw1 with rfl | rfl <;> rfl
        have := handle_plain c h d lib lib' p x cfg hx (.token t) none j hj w1
        rw [hst] at this
        exact this)
    simp only at hr
    generalize exchange c h d cfg lib' p x (.token t) (.plain (utf8 (JsonText.dumps lib j))) none s.world = X at *
    obtain ⟨o, w'⟩ := X
    simp only at hr ⊢
    have hg : ∀ phase log, Good ({ s with phase := phase, world := w', log := log } : St (World α)) := fun _ _ _ h =>
      absurd h (by show s.sendSecure ≠ true; rw [hs]; simp)
    have hst : w'.state = s.world.state ∨ w'.state = (p.run j s.world.state).2 := by
      rcases hr with ⟨h1, -⟩ | ⟨h1, -⟩
      · exact h1
      · exact .inr h1
    cases o with
    | error e => exact ⟨_, _, rfl, .error (hg s.phase _) hst⟩
    | ok r =>
      simp only
      generalize s.log ++ _ = log
      unfold handlePlain
      by_cases h200 : r.1 ≠ 200
      · rw [if_pos h200]; exact ⟨_, _, rfl, .error (hg s.phase _) hst⟩
      · rw [if_neg h200, bind_apply]
        rcases handleCode_cases r.2 ({ s with world := w', log := log } : St (World α)) (fun phase => hg phase log) with
          ⟨g1, g2⟩ | ⟨g1, e, s', g2, g3, g4⟩
        · rw [g2]
          simp only
          rcases hr with ⟨-, h2⟩ | ⟨h1, v, hv, rfl⟩
          · have h200 : r.1 = 200 := by omega
            have := h2 r.2 (by rw [← h200])
            rw [this] at g1
            cases g1
          · have hv := Except.ok.inj hv
            rw [hv]
            exact ⟨_, _, rfl, hg s.phase log, .inr (.inr ⟨rfl, h1⟩)⟩
        · rw [g2]
          exact ⟨_, _, rfl, .error g3 (by rw [g4]; exact hst)⟩

/-- One request. -/
theorem send_step (hx : x.Fair) (hp : ∀ j a, JsonText.Proper (p.run j a).1) (j : Json) (hj : JsonText.Proper j) (s : St (World α)) (hg : Good s) :
    ∃ res s', SslAes.send c h (network c h d (config lib creds kept defaults) lib' p x) (config lib creds kept defaults)
      (utf8 (JsonText.dumps lib j)) s = (res, s') ∧ Outcome p j s.world.state res s' := by
  unfold SslAes.send
  rw [bind_apply]
  have h1 := ensureHandshake_triple c h d lib' p x (config lib creds kept defaults) hx rfl s.world.state s ⟨hg, rfl⟩
  revert h1
  cases ensureHandshake h (network c h d (config lib creds kept defaults) lib' p x) (config lib creds kept defaults) s with
  | mk r s1 =>
    cases r with
    | error e => intro h1; exact ⟨_, _, rfl, .error h1.1 (.inl h1.2)⟩
    | ok u =>
      rintro ⟨h1, h2, h3⟩
      simp only [bind_apply, get_apply]
      rw [← h3]
      cases hs : s1.sendSecure with
      | true => exact secure_step c h d lib lib' p x creds kept defaults hx hp j hj s1 (h2 h1 hs)
      | false => exact plain_step c h d lib lib' p x (config lib creds kept defaults) hx j hj s1 h2 hs

theorem good_start (cfg : Config) (w : World α) : Good (start cfg w) := fun h => nomatch h

theorem good_reset (s : St (World α)) : Good (reset s).2 := fun h => nomatch h

/-- **C86, over time.** Requests sent one after the other over a camera transport, with resets anywhere in between, whatever
happens on the network, to the device's sessions and to the logins, and whether the device does the secure login or the less secure one:
answered requests were carried out exactly once, with the answer of the device; failed ones at most once. -/
theorem C86_cam_once (hx : x.Fair) (hp : ∀ j a, JsonText.Proper (p.run j a).1) (w : World α)
    (ops : List Op) (hops : ∀ j, .send j ∈ ops → JsonText.Proper j) :
    let cfg := config lib creds kept defaults
    let r := history c h (network c h d cfg lib' p x) cfg lib ops (start cfg w)
    Once p w.state r.1 r.2.world.state := by
  intro cfg
  have key : ∀ (ops : List Op) (s : St (World α)), Good s → (∀ j, .send j ∈ ops → JsonText.Proper j) →
      Once p s.world.state (history c h (network c h d cfg lib' p x) cfg lib ops s).1
        (history c h (network c h d cfg lib' p x) cfg lib ops s).2.world.state := by
    intro ops
    induction ops with
    | nil => intro s _ _; exact .nil _
    | cons op ops ih =>
      intro s hg hops
      cases op with
      | reset => exact ih (reset s).2 (good_reset s) fun j hj => hops j (.tail _ hj)
      | send j =>
        obtain ⟨res, s', h1, h2, h3⟩ := send_step c h d lib lib' p x creds kept defaults hx hp j (hops j (.head _)) s hg
        have := ih s' h2 fun j hj => hops j (.tail _ hj)
        have h1 : SslAes.send c h (network c h d cfg lib' p x) cfg (utf8 (JsonText.dumps lib j)) s = (res, s') := h1
        simp only [history, h1]
        rcases h3 with ⟨e, rfl, he⟩ | ⟨e, rfl, he⟩ | ⟨rfl, he⟩
        · rw [he] at this; exact .failed this
        · rw [he] at this; exact .unanswered this
        · rw [he] at this; exact .answered this
  exact key ops (start cfg w) (good_start cfg w) hops

/-! ## Queries -/

variable (uuid : String) (time : Nat → Int)

theorem faithful (hx : x.Fair) (hp : ∀ j a, JsonText.Proper (p.run j a).1) :
    let cfg := config lib creds kept defaults
    Faithful (camTransport c h (network c h d cfg lib' p x) cfg lib uuid time) p uuid Good fun s => s.world.state := by
  intro cfg
  constructor
  · intro w hw s hg
    obtain ⟨res, s', h1, h2, h3⟩ := send_step c h d lib lib' p x creds kept defaults hx hp _ (proper_wire uuid (time s.world.count) w hw) s hg
    exact ⟨_, res, s', message_wire uuid _ w, h1, h2, h3⟩
  · intro s _
    exact ⟨good_reset s, rfl⟩

/-- **C86, queries.** Camera queries one after the other, whatever is asked and whatever happens: the messages sent are the ones
that the queries ask for, each was carried out at most once, and exactly once with the camera's own answer if it was answered. -/
theorem C86_queries_once (hx : x.Fair) (hp : ∀ j a, JsonText.Proper (p.run j a).1) (qs : List (Smart.Query × Int))
    (hq : ∀ q ∈ qs, ProperQuery q.1) (n : Nat) (w : World α) :
    let cfg := config lib creds kept defaults
    let out := queries (camTransport c h (network c h d cfg lib' p x) cfg lib uuid time) qs (fresh cfg n w)
    ∃ trace, Sent uuid out.wire (trace.map Prod.fst) ∧ Once p w.state trace out.world.world.state := by
  intro cfg
  exact queries_once (faithful c h d lib lib' p x creds kept defaults uuid time hx hp) (fresh cfg n w) (good_start cfg w) rfl qs hq

/-- **C86, results.** On a camera whose answers do not depend on its state, a query for several methods that returns, after whatever
else and whatever retries, gives exactly the answers to these methods. -/
theorem C86_query_result (hx : x.Fair) (hp : ∀ j a, JsonText.Proper (p.run j a).1) {ans : Smart.Request → SmartSpec.Answer}
    (hans : Speaks p uuid ans) (hu : SmartSpec.Unpaged ans) (requests : Dict String Json) (hwf : Dict.WF requests)
    (hq : ProperQuery (.dict requests)) (hlen : 2 ≤ requests.length) (before : List (Smart.Query × Int))
    (hbefore : ∀ q ∈ before, ProperQuery q.1) (rc : Int) (n : Nat) (hn : n ≠ 1) (w : World α) (r : Dict String Smart.Entry) :
    let cfg := config lib creds kept defaults
    let t := camTransport c h (network c h d cfg lib' p x) cfg lib uuid time
    (SmartCam.query t (.dict requests) rc (queries t before (fresh cfg n w))).1 = .ok r →
    (∀ m, m ∈ r.keys ↔ m ∈ requests.keys) ∧
      ∀ m q, (m, q) ∈ requests → Dict.get? r m = some (SmartSpec.entryFor (ans (SmartSpec.requestFor m q))) := by
  intro cfg t
  exact query_result (faithful c h d lib lib' p x creds kept defaults uuid time hx hp) hans hu requests hwf hq hlen before hbefore rc
    (fresh cfg n w) (good_start cfg w) hn r

/-- **C86, setters.** A query that sets something on a camera, after whatever else, has set it when it returns; when it raises, it has
been set or nothing has changed. -/
theorem C86_setter (hx : x.Fair) (hp : ∀ j a, JsonText.Proper (p.run j a).1) (m : String) (hm : Plain m) (q : Json)
    (hq : JsonText.Proper q) {f : α → α} {v : Json} (hset : Sets p uuid (SmartSpec.requestFor m q) f v) (before : List (Smart.Query × Int))
    (hbefore : ∀ q ∈ before, ProperQuery q.1) (rc : Int) (n : Nat) (w : World α) :
    let cfg := config lib creds kept defaults
    let t := camTransport c h (network c h d cfg lib' p x) cfg lib uuid time
    let s := queries t before (fresh cfg n w)
    let out := SmartCam.query t (.dict [(m, q)]) rc s
    (∀ r, out.1 = .ok r → r = [(m, .value v)] ∧ out.2.world.world.state = f s.world.world.state) ∧
      ∀ e, out.1 = .error e → out.2.world.world.state = s.world.world.state ∨ out.2.world.world.state = f s.world.world.state := by
  intro cfg t
  exact setter (faithful c h d lib lib' p x creds kept defaults uuid time hx hp) m hm q hq hset before hbefore rc (fresh cfg n w)
    (good_start cfg w)

end

/-! ## Examples -/

open EndToEnd (counter counter_proper)

/-- The answer to the second request does not arrive, and the device restarts before the fourth. -/
def sampleChance : Chance where
  fate n := if n = 4 then .unanswered (.error .timeout) else .fine
  restart n := n = 6
  localNonce n := String.ofList [Char.ofNat (65 + n)]
  remoteNonce n := String.ofList [Char.ofNat (65 + n)]
  token n := .num n
  start _ := 7
  refusal _ := (200, .obj [("error_code", .num (-40401))])
  denial _ := (200, .obj [("error_code", .num (-40210))])
  plainly n := n = 50
  lenient _ := false

theorem sampleChance_fair : sampleChance.Fair := by
  refine ⟨fun n => ?_, fun n _ => rfl, fun n _ => ?_⟩
  · unfold sampleChance
    simp only
    split
    · intro b hb; cases hb
    · trivial
  · show ((Json.obj [("error_code", .num (-40210))]).get? "error_code") ≠ _
    decide +kernel

/-- A camera with the owner's password, by SHA-256 or (the less secure ones) by MD5. -/
def sampleDevice (secure : Bool) : Device where
  knows u := u = "admin"
  stored := if secure then sha Crypto.toyHashes (utf8 "pw") else md5 Crypto.toyHashes (utf8 "pw")
  secure := secure

def sampleWorld : World Nat := ⟨none, none, none, 0, 0⟩

abbrev sampleConfig : Config := config .python (some ("admin", "pw")) none ("admin", "default")

abbrev sampleNetwork (secure : Bool) : Env (World Nat) :=
  network Crypto.toyCipher Crypto.toyHashes (sampleDevice secure) sampleConfig .orjson counter sampleChance

def sampleOps : List Op := [.send (.str "a"), .send (.str "b"), .send (.str "c"), .send (.str "d"), .reset, .send (.str "e")]

theorem sampleOps_proper (j : Json) (hj : .send j ∈ sampleOps) : JsonText.Proper j := by
  simp only [sampleOps, List.mem_cons, Op.send.injEq, List.not_mem_nil, or_false, reduceCtorEq, false_or] at hj
  rcases hj with rfl | rfl | rfl | rfl | rfl <;> simp [JsonText.Proper]

/-- With the secure login and with the less secure one: the second request fails although it was carried out, the fourth without being
carried out. -/
example : ∀ secure ∈ [true, false],
    ((history Crypto.toyCipher Crypto.toyHashes (sampleNetwork secure) sampleConfig .python sampleOps (start sampleConfig sampleWorld)).1.map
      fun o => o.2.toOption.bind fun v => v.get? "result") = [some (.num 0), none, some (.num 2), none, some (.num 3)] ∧
    (history Crypto.toyCipher Crypto.toyHashes (sampleNetwork secure) sampleConfig .python sampleOps (start sampleConfig sampleWorld)).2.world.state = 4 := by
  decide +kernel

example (secure : Bool) := C86_cam_once Crypto.toyCipher Crypto.toyHashes (sampleDevice secure) .python .orjson counter sampleChance
  (some ("admin", "pw")) none ("admin", "default") sampleChance_fair counter_proper sampleWorld sampleOps sampleOps_proper

/-- A camera that keeps what it is given, on its own or in a batch of one. -/
def keeping : Program Json where
  run j a :=
    match (j.get? "params").bind fun q => q.get? "requests" with
    | some (.arr [r]) =>
      (.obj [("error_code", .num 0), ("result", .obj [("responses", .arr [.obj [("method", .str "setLight"), ("error_code", .num 0),
        ("result", .obj [])]])])], (r.get? "params").getD a)
    | _ => (.obj [("error_code", .num 0), ("result", .obj [])], (j.get? "params").getD a)

theorem keeping_proper (j a : Json) : JsonText.Proper (keeping.run j a).1 := by
  unfold keeping
  simp only
  split <;> simp [JsonText.Proper, JsonText.ProperKvs, JsonText.ProperList, Dict.WF, Dict.keys]

theorem keeping_sets (n : Int) : Sets keeping "u" (SmartSpec.requestFor "setLight" (.obj [("light", .num n)])) (fun _ => .obj [("light", .num n)])
    (.obj []) := by
  have hp : SmartSpec.requestFor "setLight" (.obj [("light", .num n)]) = ⟨"setLight", some (.obj [("light", .num n)])⟩ := rfl
  rw [hp]
  have one : ∀ j a, Message "u" (.single ⟨"setLight", some (.obj [("light", .num n)])⟩) j →
      keeping.run j a = (.obj [("error_code", .num 0), ("result", .obj [])], .obj [("light", .num n)]) := by
    rintro j a ⟨-, h2, -⟩
    simp only [keeping, h2]
    rfl
  have many : ∀ j a, Message "u" (.multi [⟨"setLight", some (.obj [("light", .num n)])⟩]) j →
      keeping.run j a = (.obj [("error_code", .num 0), ("result", .obj [("responses", .arr [.obj [("method", .str "setLight"),
        ("error_code", .num 0), ("result", .obj [])]])])], .obj [("light", .num n)]) := by
    rintro j a ⟨-, h2, -⟩
    simp only [keeping, h2]
    rfl
  refine ⟨?_, fun _ => rfl, ?_, ?_, rfl⟩
  · rintro j a (hm | hm)
    · rw [one j a hm]
    · rw [many j a hm]
  · intro j a hm
    rw [one j a hm]
    exact ⟨⟨_, rfl⟩, rfl, rfl⟩
  · intro j a hm
    rw [many j a hm]
    exact ⟨_, _, ⟨⟨_, rfl⟩, rfl, rfl⟩, rfl, rfl, ⟨_, rfl⟩, rfl, rfl⟩

abbrev keepingTransport (secure : Bool) : Smart.Transport (St (World Json)) :=
  camTransport Crypto.toyCipher Crypto.toyHashes (network Crypto.toyCipher Crypto.toyHashes (sampleDevice secure) sampleConfig .orjson keeping
    sampleChance) sampleConfig .python "u" fun n => n

/-- The first answer is lost; the second attempt works. -/
example : (SmartCam.query (keepingTransport true) (.dict [("setLight", .obj [("light", .num 5)])]) 3 (fresh sampleConfig 5 ⟨none, none, none, .null, 1⟩)).1 =
    .ok [("setLight", .value (.obj []))] := by decide +kernel

example (secure : Bool) := C86_setter Crypto.toyCipher Crypto.toyHashes (sampleDevice secure) .python .orjson keeping sampleChance
  (some ("admin", "pw")) none ("admin", "default") "u" (fun n => n) sampleChance_fair keeping_proper "setLight" (by unfold Plain; decide +kernel)
  (.obj [("light", .num 5)]) (by simp [JsonText.Proper, JsonText.ProperKvs, Dict.WF, Dict.keys]) (keeping_sets 5) [] (fun _ h => (nomatch h)) 3 5
  ⟨none, none, none, .null, 0⟩

open EndToEnd (setting setting_proper setting_speaks setting_unpaged) in
/-- A query for two methods. -/
example (secure : Bool) := C86_query_result Crypto.toyCipher Crypto.toyHashes (sampleDevice secure) .python .orjson setting sampleChance
  (some ("admin", "pw")) none ("admin", "default") "u" (fun n => n) sampleChance_fair setting_proper
  setting_speaks setting_unpaged [("set", .num 5), ("other", .null)] (show ["set", "other"].Nodup by decide +kernel)
  (by intro m q hq; simp only [List.mem_cons, Prod.mk.injEq, List.not_mem_nil, or_false] at hq; rcases hq with ⟨-, rfl⟩ | ⟨-, rfl⟩ <;> simp [JsonText.Proper])
  (by decide) [] (fun _ h => (nomatch h)) 3 5 (by decide) ⟨none, none, none, .null, 0⟩

open EndToEnd (setting) in
example : ((SmartCam.query (camTransport Crypto.toyCipher Crypto.toyHashes (network Crypto.toyCipher Crypto.toyHashes (sampleDevice true) sampleConfig
      .orjson setting sampleChance) sampleConfig .python "u" fun n => n) (.dict [("set", .num 5), ("other", .null)]) 3
    (fresh sampleConfig 5 ⟨none, none, none, .null, 0⟩)).1.toOption.map Dict.keys) = some ["other", "set"] := by decide +kernel

end Kasa.CamEndToEnd
