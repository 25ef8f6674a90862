import Verif.Spec.CamReliable
import Verif.Lemmas.SslAes
import Verif.Lemmas.ErrorCodes
import Verif.Props.CamEndToEnd
/-!
# Logins and requests on a camera when nothing goes wrong
-/

namespace Kasa

theorem utf8_append (a b : String) : utf8 (a ++ b) = utf8 a ++ utf8 b := by
  unfold utf8
  rw [String.toByteArray_append]
  simp

namespace SslAes

theorem hexDigit_text : ∀ n : Fin 16, utf8 (String.ofList [Char.ofNat (hexDigit n.val).toNat]) = [hexDigit n.val] := by
  decide +kernel

theorem hexDigit_text' (n : Nat) (hn : n < 16) : utf8 (String.ofList [Char.ofNat (hexDigit n).toNat]) = [hexDigit n] :=
  hexDigit_text ⟨n, hn⟩

/-- Hexadecimal digits are text. -/
theorem hexUpper_text (b : Bytes) : ∃ t, utf8 t = hexUpper b := by
  induction b with
  | nil => exact ⟨"", rfl⟩
  | cons x b ih =>
    obtain ⟨t, ht⟩ := ih
    have : hexUpper (x :: b) = hexDigit (x.toNat / 16) :: hexDigit (x.toNat % 16) :: hexUpper b := rfl
    have hx := x.toNat_lt
    refine ⟨String.ofList [Char.ofNat (hexDigit (x.toNat / 16)).toNat] ++
      (String.ofList [Char.ofNat (hexDigit (x.toNat % 16)).toNat] ++ t), ?_⟩
    rw [utf8_append, utf8_append, hexDigit_text' _ (by omega), hexDigit_text' _ (by omega), ht, this]
    rfl

end SslAes
namespace CamEndToEnd
open PyM SslAes SslAesSpec
open EndToEnd (Program)

/-- The proof of a device whose client's nonce is text is text. -/
theorem proof_text (h : Hashes) (cn sn : String) (hash : Bytes) :
    utf8 ((fromUtf8 (proof h (utf8 cn) (utf8 sn) hash)).getD "") = proof h (utf8 cn) (utf8 sn) hash := by
  obtain ⟨t, ht⟩ := hexUpper_text (h.sha256 (utf8 cn ++ hash ++ utf8 sn))
  have : proof h (utf8 cn) (utf8 sn) hash = utf8 (t ++ sn ++ cn) := by
    rw [utf8_append, utf8_append, ht]
    rfl
  rw [this, fromUtf8_utf8]
  rfl

/-! ## What the client makes of the answers -/

section
variable {α : Type} (c : BlockCipher) (h : Hashes) (d : Device) (lib : JsonText.Lib) (p : Program α) (x : Chance) (cfg : Config)

theorem offer_facts (cn : Bytes) (sn : String) :
    (offer h d cn sn).truthy = true ∧ isLessSecure (offer h d cn sn) = .ok false ∧ offersSecure (offer h d cn sn) = .ok true ∧
      noOffer invalidNonce (some (offer h d cn sn)) = .ok false ∧
      deviceProof (offer h d cn sn) = .ok (sn, .str ((fromUtf8 (proof h cn (utf8 sn) d.stored)).getD "")) :=
  ⟨rfl, rfl, rfl, rfl, rfl⟩

theorem lessOffer_facts : lessOffer.truthy = true ∧ isLessSecure lessOffer = .ok true ∧ innerError lessOffer = .ok (some (-40401)) ∧
    offersSecure lessOffer = .ok false := by
  refine ⟨rfl, ?_, rfl, rfl⟩
  decide +kernel

theorem reported_cases (n : Int) : CodesSpec.reported n = n ∨ CodesSpec.reported n = -100000 := by
  unfold CodesSpec.reported
  split
  · exact .inl rfl
  · exact .inr rfl

theorem denies_facts {v : Json} (hv : Denies v) : v.truthy = true ∧ offersSecure v = .ok false ∧
    (isLessSecure v = .ok false ∨ isLessSecure v = .ok true ∧ innerError v = .ok (some badUsername)) := by
  have hobj : ∃ n, v.get? "error_code" = some (.num n) := by
    rcases hv with ⟨n, h1, -⟩ | ⟨h1, -⟩
    · exact ⟨n, h1⟩
    · exact ⟨_, h1⟩
  obtain ⟨n, hn⟩ := hobj
  cases v with
  | obj kvs =>
    have hk : Dict.get? kvs "error_code" = some (.num n) := hn
    have hcode : responseError (.obj kvs) = .ok (CodesSpec.reported n) := by
      unfold responseError getOpt
      simp only [hk]
      exact Codes.readCode_num n
    refine ⟨?_, ?_, ?_⟩
    · cases kvs with
      | nil => cases hk
      | cons _ _ => rfl
    · have hne : CodesSpec.reported n ≠ invalidNonce := by
        unfold invalidNonce
        rcases hv with ⟨m, h1, h2, h3⟩ | ⟨h1, -⟩
        · rw [hn] at h1
          cases h1
          rcases reported_cases n with h | h <;> omega
        · rw [hn] at h1
          cases h1
          decide
      unfold offersSecure
      rw [hcode]
      show (if CodesSpec.reported n ≠ invalidNonce then _ else _) = _
      rw [if_pos hne]
      rfl
    · rcases hv with ⟨m, h1, h2, h3⟩ | ⟨h1, h2, h3⟩
      · rw [hn] at h1
        cases h1
        left
        have hne : CodesSpec.reported n ≠ sessionExpired := by
          unfold sessionExpired
          rcases reported_cases n with h | h <;> omega
        unfold isLessSecure
        rw [hcode]
        show (if CodesSpec.reported n ≠ sessionExpired then _ else _) = _
        rw [if_pos hne]
        rfl
      · rw [hn] at h1
        cases h1
        unfold datum AesSpec.result at h3
        cases hr : (Json.obj kvs).get? "result" with
        | none => rw [hr] at h3; cases h3
        | some r =>
          rw [hr] at h3
          cases r with
          | obj res =>
            simp only [Option.bind_some] at h3
            cases hd : (Json.obj res).get? "data" with
            | none => rw [hd] at h3; cases h3
            | some data =>
              rw [hd] at h3
              cases data with
              | obj ds =>
                simp only [Option.bind_some] at h3
                have hr' : Dict.get? kvs "result" = some (.obj res) := hr
                have hd' : Dict.get? res "data" = some (.obj ds) := hd
                have h2' : Dict.get? kvs "data" = none := h2
                have h3' : Dict.get? ds "code" = some (.num (-40411)) := h3
                have hl : ∃ b, isLessSecure (.obj kvs) = .ok b := by
                  unfold isLessSecure
                  rw [hcode]
                  have : CodesSpec.reported (-40401) = sessionExpired := by decide
                  rw [this]
                  simp only [getDict, getOpt, hr', hd', bind, Except.bind, pure, Except.pure, ne_eq, not_true_eq_false, if_false]
                  split
                  · exact ⟨_, rfl⟩
                  · cases Dict.get? ds "encrypt_type" with
                    | none => exact ⟨_, rfl⟩
                    | some t => exact ⟨_, rfl⟩
                have hi : innerError (.obj kvs) = .ok (some badUsername) := by
                  unfold innerError innerRaw
                  simp only [getDict, getOpt, hr', hd', h2', h3', Dict.get?, notNull, bind, Except.bind, pure, Except.pure]
                  rfl
                obtain ⟨b, hb⟩ := hl
                cases b with
                | false => exact .inl hb
                | true => exact .inr ⟨hb, hi⟩
              | _ => cases h3
          | _ => cases h3
  | _ => cases hn

/-! ## The exchanges of a login -/

variable {n : Nat}

theorem exchange_calm (hc : x.CalmFrom n) (url : Url) (body : Body) (tag : Option Tag) (w : World α) (hn : n ≤ w.count) :
    exchange c h d cfg lib p x url body tag w =
      (.ok (handle c h d cfg lib p x url body tag w).1, { (handle c h d cfg lib p x url body tag w).2 with count := w.count + 1 }) := by
  unfold exchange
  simp only [hc.restart _ hn, Bool.false_eq_true, if_false, hc.fate _ hn]

/-- The name in use: the user's, or the default one if the device knows it. -/
def Named (d : Device) (cfg : Config) (u : Option String) : Prop :=
  u = cfg.username ∨ u = some cfg.defaults.1 ∧ d.knows cfg.defaults.1 = true

/-- During a login. -/
structure Login (d : Device) (n : Nat) (a : α) (u : Option String) (s : St (World α)) : Prop where
  time : n ≤ s.world.count
  state : s.world.state = a
  user : s.username = u
  phase : s.phase = .handshakeRequired
  less : s.sendSecure = false → d.secure = false

theorem password_eq (ho : Owned h d cfg) {σ : Type} (s : St σ) (hn : Named d cfg s.username) : pwdToHash cfg s = password cfg := by
  unfold pwdToHash password
  cases hcr : cfg.creds with
  | some y => rfl
  | none =>
    cases hst : cfg.stored with
    | none =>
      simp only [Option.map_none]
      cases nonEmpty s.username <;> rfl
    | some y =>
      have hu : ∃ u, nonEmpty s.username = some u := by
        rcases hn with hn | ⟨hn, -⟩
        · rw [hn]
          unfold Config.username
          rw [hcr, hst]
          exact ⟨y.1, if_neg (ho.kept y hcr hst)⟩
        · rw [hn]
          exact ⟨_, if_neg ho.default⟩
      obtain ⟨u, hu⟩ := hu
      rw [hu]
      simp only [Option.map_some, nonEmpty]
      by_cases he : y.2 = ""
      · rw [if_pos he, if_pos he]
      · rw [if_neg he, if_neg he]

variable (a : α) (u : Option String)

/-- A login goes on. -/
theorem Login.next {d : Device} {a : α} {u : Option String} {s : St (World α)} (hl : Login d n a u s) (w : World α) (log : List Ev)
    (h1 : s.world.count ≤ w.count) (h2 : w.state = s.world.state) : Login d n a u { s with world := w, log := log } :=
  ⟨Nat.le_trans hl.time h1, h2.trans hl.state, hl.user, hl.phase, hl.less⟩

theorem drawNonce_calm : Triple (Login d n a u) (drawNonce (network c h d cfg lib p x))
    (fun nonce s => Login d n a u s ∧ ∃ t, nonce = utf8 t) (fun _ _ => False) := by
  intro s hs
  exact ⟨⟨Nat.le_succ_of_le hs.time, hs.state, hs.user, hs.phase, hs.less⟩, _, rfl⟩

/-- What a probe is answered with. -/
def Probed (user : String) (nonce : Bytes) (r : Json) (s : St (World α)) : Prop :=
  (d.knows user = false ∧ Denies r) ∨
  (d.knows user = true ∧ d.secure = true ∧ ∃ sn, r = offer h d nonce sn ∧ s.world.pending = some (nonce, sn)) ∨
  (d.knows user = true ∧ d.secure = false ∧ r = lessOffer)

theorem probe_calm (hc : x.CalmFrom n) (user : String) (nonce : Bytes) :
    Triple (Login d n a u) (probe (network c h d cfg lib p x) user nonce)
      (fun r s => Login d n a u s ∧ Probed h d user nonce r s) (fun _ _ => False) := by
  intro s hs
  unfold probe
  rw [bind_apply]
  unfold post
  have henv : (network c h d cfg lib p x).post .app (.probe user nonce) none s.world =
    exchange c h d cfg lib p x .app (.probe user nonce) none s.world := rfl
  rw [henv, exchange_calm c h d lib p x cfg hc _ _ _ _ hs.time]
  cases hk : d.knows user with
  | false =>
    obtain ⟨v, h1, h2⟩ := hc.denial _ hs.time
    have hh : handle c h d cfg lib p x .app (.probe user nonce) none s.world = ((200, v), s.world) := by
      simp only [handle, hk, if_true, h1]
    rw [hh]
    exact ⟨hs.next _ _ (Nat.le_succ _) rfl, .inl ⟨hk, h2⟩⟩
  | true =>
    cases hsec : d.secure with
    | true =>
      have hh : handle c h d cfg lib p x .app (.probe user nonce) none s.world =
          ((200, offer h d nonce (x.remoteNonce s.world.count)), { s.world with pending := some (nonce, x.remoteNonce s.world.count) }) := by
        simp only [handle, hk, hsec, if_true, Bool.true_eq_false, if_false]
      rw [hh]
      exact ⟨hs.next _ _ (Nat.le_succ _) rfl, .inr (.inl ⟨hk, hsec, _, rfl, rfl⟩)⟩
    | false =>
      have hh : handle c h d cfg lib p x .app (.probe user nonce) none s.world = ((200, lessOffer), s.world) := by
        simp only [handle, hk, hsec, Bool.true_eq_false, Bool.false_eq_true, if_false]
      rw [hh]
      exact ⟨hs.next _ _ (Nat.le_succ _) rfl, .inr (.inr ⟨hk, hsec, rfl⟩)⟩

/-- Logged in the less secure way. -/
structure Less (d : Device) (n : Nat) (a : α) (s : St (World α)) : Prop where
  time : n ≤ s.world.count
  state : s.world.state = a
  insecure : d.secure = false
  plainly : s.sendSecure = false
  token : ∃ t, s.token = some t ∧ s.world.plain = some t

theorem lessLogin_calm (hc : x.CalmFrom n) (ho : Owned h d cfg) (henc : cfg.encode = utf8) (user : String) (hk : d.knows user = true)
    (hsec : d.secure = false) :
    Triple (Login d n a u) (lessSecureLogin h (network c h d cfg lib p x) cfg user (password cfg))
      (fun done s => done = true ∧ Less d n a s ∧ s.username = u) (fun _ _ => False) := by
  intro s hs
  unfold lessSecureLogin
  rw [bind_apply]
  unfold post
  have henv : ∀ body, (network c h d cfg lib p x).post .app body none s.world = exchange c h d cfg lib p x .app body none s.world := fun _ => rfl
  rw [henv, exchange_calm c h d lib p x cfg hc _ _ _ _ hs.time]
  have hh : md5Hex h (cfg.encode (password cfg)) = d.stored := by rw [ho.less hsec, henc]; rfl
  simp only [handle, hh, hk, hsec, and_self, if_true]
  unfold finishLessSecure
  have ht := hc.token _ hs.time
  simp only [ne_eq, not_true_eq_false, if_false]
  have e1 : getOpt (Json.obj [("error_code", .num 0), ("result", .obj [("stok", x.token s.world.count)])]) "error_code" = .ok (some (.num 0)) := rfl
  have e2 : getDict (Json.obj [("error_code", .num 0), ("result", .obj [("stok", x.token s.world.count)])]) "result" =
    .ok (.obj [("stok", x.token s.world.count)]) := rfl
  have e3 : getOpt (Json.obj [("stok", x.token s.world.count)]) "stok" = .ok (some (x.token s.world.count)) := rfl
  simp only [bind_apply, lift_apply, e1, true_or, if_true, e2, e3, ht, modify_apply, pure_apply]
  exact ⟨trivial, ⟨Nat.le_succ_of_le hs.time, hs.state, hsec, rfl, _, rfl, rfl⟩, hs.user⟩

/-- Logged in the secure way, in the device's session. -/
structure Secured (d : Device) (n : Nat) (a : α) (s : St (World α)) : Prop where
  time : n ≤ s.world.count
  state : s.world.state = a
  sealed : s.sendSecure = true
  session : ∃ ses k, s.world.session = some ses ∧ s.token = some ses.token ∧ s.session = some ses.key ∧ ses.key.iv.length = 16 ∧
    s.localNonce = some ses.cnonce ∧ s.pwdHash = some d.stored ∧ s.seq = .num k ∧ ses.next ≤ k

theorem checkProof_calm (ho : Owned h d cfg) (henc : cfg.encode = utf8) (hsec : d.secure = true) (cn sn : String) (s : St (World α))
    (hn : Named d cfg s.username) :
    checkProof h cfg (utf8 cn) (offer h d (utf8 cn) sn) s = (.ok (utf8 cn, utf8 sn, d.stored), s) := by
  unfold checkProof
  simp only [bind_apply, lift_apply, (offer_facts h d (utf8 cn) sn).2.2.2.2, get_apply, password_eq h d cfg ho s hn]
  have hst : ∀ pwd, pwd = d.stored →
      sameText cfg (.str ((fromUtf8 (proof h (utf8 cn) (utf8 sn) d.stored)).getD "")) (confirmHash h (utf8 cn) (utf8 sn) pwd) = true := by
    rintro pwd rfl
    unfold sameText
    simp only [henc, beq_iff_eq]
    exact proof_text h cn sn d.stored
  have e1 : shaHex h (cfg.encode (password cfg)) = sha h (utf8 (password cfg)) := by rw [henc]; rfl
  have e2 : md5Hex h (cfg.encode (password cfg)) = md5 h (utf8 (password cfg)) := by rw [henc]; rfl
  have e3 : cfg.encode sn = utf8 sn := by rw [henc]
  rw [e1, e2, e3]
  rcases ho.secure hsec with hs | ⟨hs, hne⟩
  · rw [if_pos (hst _ hs.symm), hs]
    rfl
  · rw [if_neg, if_pos (hst _ hs.symm), hs]
    · rfl
    · intro hm
      have := sameText_offer h d cfg henc hm
      rw [hs] at this
      exact hne _ _ this

theorem secure_calm (hc : x.CalmFrom n) (ho : Owned h d cfg) (henc : cfg.encode = utf8) (hsec : d.secure = true) (user : String)
    (hu : user ≠ "") (hk : d.knows user = true) (hnamed : Named d cfg (some user)) (cn sn : String) (s : St (World α))
    (hs : Login d n a (some user) s) (hp : s.world.pending = some (utf8 cn, sn)) :
    ∃ s', (finishHandshake1 h cfg ⟨utf8 cn, some invalidNonce, some (offer h d (utf8 cn) sn)⟩ >>= fun r =>
        performHandshake2 h (network c h d cfg lib p x) cfg r.1 r.2.1 r.2.2) s = (.ok (), s') ∧
      Secured d n a s' ∧ s'.username = some user ∧ s'.phase = .established := by
  have hsend : s.sendSecure = true := by
    cases hb : s.sendSecure with
    | true => rfl
    | false => have := hs.less hb; rw [hsec] at this; cases this
  have hu' : nonEmpty s.username = some user := by rw [hs.user]; exact if_neg hu
  rw [bind_apply]
  unfold finishHandshake1
  simp only [bind_apply, get_apply, hu', lift_apply, (offer_facts h d (utf8 cn) sn).2.2.2.1, reduceCtorEq, if_false, Bool.false_eq_true,
    checkProof_calm h d cfg ho henc hsec cn sn s (hs.user ▸ hnamed)]
  unfold performHandshake2
  simp only [bind_apply, get_apply, hs.user]
  unfold post
  have henv : ∀ body, (network c h d cfg lib p x).post .app body none s.world = exchange c h d cfg lib p x .app body none s.world := fun _ => rfl
  simp only [henv, exchange_calm c h d lib p x cfg hc _ _ _ _ hs.time]
  have hh : handle c h d cfg lib p x .app (.digestLogin (some user) (utf8 cn) (digestPassword h (utf8 cn) (utf8 sn) d.stored)) none s.world =
      ((200, .obj [("error_code", .num 0), ("result", .obj [("stok", x.token s.world.count), ("start_seq", .num (x.start s.world.count))])]),
        { s.world with
          pending := none
          session := some ⟨x.token s.world.count, sessionKey h cfg (utf8 cn) (utf8 sn) d.stored, utf8 cn, x.start s.world.count⟩ }) := by
    simp only [handle, hp]
    rw [if_pos ⟨trivial, by simp [hk], rfl⟩]
  simp only [hh]
  refine ⟨_, rfl, ⟨Nat.le_succ_of_le hs.time, hs.state, hsend, _, _, rfl, rfl, rfl, sessionKey_iv h cfg _ _ _, rfl, rfl, rfl, Int.le_refl _⟩, hs.user, rfl⟩

/-! ## A whole login -/

/-- The transport is logged in, or has to log in first, with a name and in a way that will work. -/
structure Ready (d : Device) (cfg : Config) (n : Nat) (a : α) (s : St (World α)) : Prop where
  time : n ≤ s.world.count
  state : s.world.state = a
  named : Named d cfg s.username
  less : s.sendSecure = false → d.secure = false
  session : s.phase = .established → Secured d n a s ∨ Less d n a s

theorem nonEmpty_some {u : Option String} {user : String} (he : nonEmpty u = some user) : u = some user ∧ user ≠ "" := by
  cases u with
  | none => cases he
  | some v =>
    unfold nonEmpty at he
    simp only at he
    split at he
    · cases he
    · next hv => cases he; exact ⟨rfl, hv⟩

/-- When the name in use does not help, the default one does. -/
theorem default_known (ho : Owned h d cfg) {u : Option String} (hn : Named d cfg u)
    (hu : ∀ user, nonEmpty u = some user → d.knows user = false) : d.knows cfg.defaults.1 = true := by
  rcases ho.name with ⟨v, h1, h2, h3⟩ | h1
  · rcases hn with hn | ⟨-, hn⟩
    · have := hu v (by rw [hn, h1]; exact if_neg h2)
      rw [h3] at this
      cases this
    · exact hn
  · exact h1

/-- After the probes. -/
def ProbesEnd (f : Option Found) (s : St (World α)) : Prop :=
  (f = none ∧ Less d n a s ∧ Named d cfg s.username ∧ s.phase = .established) ∨
  (∃ user cn sn, f = some ⟨utf8 cn, some invalidNonce, some (offer h d (utf8 cn) sn)⟩ ∧ d.secure = true ∧ user ≠ "" ∧
    d.knows user = true ∧ Named d cfg (some user) ∧ Login d n a (some user) s ∧ s.world.pending = some (utf8 cn, sn))

theorem defaultProbe_calm (hc : x.CalmFrom n) (ho : Owned h d cfg) (henc : cfg.encode = utf8) (hu : Named d cfg u)
    (hk : d.knows cfg.defaults.1 = true) (first : Option (Bytes × Json)) :
    Triple (Login d n a u) (defaultProbe h (network c h d cfg lib p x) cfg first) (ProbesEnd h d cfg (n := n) a) (fun _ _ => False) := by
  unfold defaultProbe
  refine Triple.bind (drawNonce_calm c h d lib p x cfg a u) fun nonce => ?_
  refine Triple.bind (R := fun r s => (Login d n a u s ∧ Probed h d cfg.defaults.1 nonce r s) ∧ ∃ t, nonce = utf8 t) ?_ fun r => ?_
  · rintro s ⟨hs, ht⟩
    have := probe_calm c h d lib p x cfg a u hc cfg.defaults.1 nonce s hs
    revert this
    cases probe (network c h d cfg lib p x) cfg.defaults.1 nonce s with
    | mk o s' =>
      cases o with
      | ok v => exact fun h1 => ⟨h1, ht⟩
      | error e => exact fun h1 => h1
  · rintro s ⟨⟨hs, hpr⟩, t, rfl⟩
    rcases hpr with ⟨h1, -⟩ | ⟨-, hsec, sn, rfl, hpend⟩ | ⟨-, hsec, rfl⟩
    · rw [hk] at h1; cases h1
    · simp only [bind_apply, lift_apply, (offer_facts h d (utf8 t) sn).2.2.1, if_true, modify_apply, pure_apply]
      exact .inr ⟨_, t, sn, rfl, hsec, ho.default, hk, .inr ⟨rfl, hk⟩, ⟨hs.time, hs.state, rfl, hs.phase, hs.less⟩, hpend⟩
    · have hpw := password_eq h d cfg ho s (hs.user ▸ hu)
      simp only [bind_apply, lift_apply, lessOffer_facts.2.2.2, lessOffer_facts.2.1, Bool.false_eq_true, Bool.true_eq_false, if_false, get_apply, hpw]
      have := lessLogin_calm c h d lib p x cfg a u hc ho henc cfg.defaults.1 hk hsec s hs
      revert this
      cases lessSecureLogin h (network c h d cfg lib p x) cfg cfg.defaults.1 (password cfg) s with
      | mk o s' =>
        cases o with
        | error e => exact fun h1 => h1
        | ok done =>
          rintro ⟨rfl, hl, -⟩
          simp only [if_true, bind_apply, modify_apply, pure_apply]
          exact .inl ⟨rfl, ⟨hl.time, hl.state, hl.insecure, hl.plainly, hl.token⟩, .inr ⟨rfl, hk⟩, rfl⟩

theorem firstProbe_calm (hc : x.CalmFrom n) :
    Triple (Login d n a u) (firstProbe (network c h d cfg lib p x))
      (fun first s => Login d n a u s ∧ match first with
        | none => nonEmpty u = none
        | some (nonce, r) => ∃ user t, nonEmpty u = some user ∧ nonce = utf8 t ∧ Probed h d user nonce r s) (fun _ _ => False) := by
  intro s hs
  unfold firstProbe
  simp only [bind_apply, get_apply, hs.user]
  cases hu : nonEmpty u with
  | none => exact ⟨hs, rfl⟩
  | some user =>
    refine Triple.bind (drawNonce_calm c h d lib p x cfg a u) (fun nonce => ?_) s hs
    rintro s ⟨hs, t, ht⟩
    have := probe_calm c h d lib p x cfg a u hc user nonce s hs
    rw [bind_apply]
    revert this
    cases probe (network c h d cfg lib p x) user nonce s with
    | mk o s' =>
      cases o with
      | ok v => exact fun h1 => ⟨h1.1, user, t, rfl, ht, h1.2⟩
      | error e => exact fun h1 => h1

theorem probes_calm (hc : x.CalmFrom n) (ho : Owned h d cfg) (henc : cfg.encode = utf8) (hu : Named d cfg u) :
    Triple (Login d n a u) (probes h (network c h d cfg lib p x) cfg) (ProbesEnd h d cfg (n := n) a) (fun _ _ => False) := by
  unfold probes
  refine Triple.bind (firstProbe_calm c h d lib p x cfg a u hc) fun first => ?_
  rintro s ⟨hs, hf⟩
  cases first with
  | none =>
    have hk := default_known h d cfg ho hu (fun user he => by rw [hf] at he; cases he)
    have := defaultProbe_calm c h d lib p x cfg a u hc ho henc hu hk none s hs
    exact this
  | some y =>
    obtain ⟨nonce, r⟩ := y
    obtain ⟨user, t, he, rfl, hpr⟩ := hf
    obtain ⟨rfl, hne⟩ := nonEmpty_some he
    rcases hpr with ⟨hk, hden⟩ | ⟨hk, hsec, sn, rfl, hpend⟩ | ⟨hk, hsec, rfl⟩
    · obtain ⟨d1, d2, d3⟩ := denies_facts hden
      have hk := default_known h d cfg ho hu (fun v hv => by rw [he] at hv; cases hv; exact hk)
      have hless : userLessSecure h (network c h d cfg lib p x) cfg (some (utf8 t, r)) s = (.ok false, s) := by
        unfold userLessSecure
        rcases d3 with d3 | ⟨d3, d4⟩
        · simp only [d1, d3, bind_apply, lift_apply, Bool.true_eq_false, if_false, if_true, pure_apply]
        · simp only [d1, d3, d4, bind_apply, lift_apply, Bool.true_eq_false, if_false, if_true, pure_apply]
      have hoff : firstOffers (some (utf8 t, r)) = .ok false := by
        unfold firstOffers
        simp only [d1, if_true, d2]
      rw [bind_apply, hless]
      simp only [Bool.false_eq_true, if_false, bind_apply, lift_apply, hoff]
      exact defaultProbe_calm c h d lib p x cfg a _ hc ho henc hu hk (some (utf8 t, r)) s hs
    · obtain ⟨d1, d2, d3, -⟩ := offer_facts h d (utf8 t) sn
      have hless : userLessSecure h (network c h d cfg lib p x) cfg (some (utf8 t, offer h d (utf8 t) sn)) s = (.ok false, s) := by
        unfold userLessSecure
        simp only [d1, d2, bind_apply, lift_apply, Bool.true_eq_false, if_false, if_true, pure_apply]
      have hoff : firstOffers (some (utf8 t, offer h d (utf8 t) sn)) = .ok true := by
        unfold firstOffers
        simp only [d1, if_true, d3]
      rw [bind_apply, hless]
      simp only [Bool.false_eq_true, if_false, bind_apply, lift_apply, hoff, pure_apply]
      exact .inr ⟨user, t, sn, rfl, hsec, hne, hk, hu, hs, hpend⟩
    · obtain ⟨d1, d2, d3, d4⟩ := lessOffer_facts
      have hpw := password_eq h d cfg ho s (hs.user ▸ hu)
      have hin : ¬ (some (-40401 : Int) = some badUsername) := by decide
      have hless : userLessSecure h (network c h d cfg lib p x) cfg (some (utf8 t, lessOffer)) s =
          lessSecureLogin h (network c h d cfg lib p x) cfg user (password cfg) s := by
        unfold userLessSecure
        simp only [d1, d2, d3, bind_apply, lift_apply, Bool.true_eq_false, if_false, hin, get_apply, hpw, hs.user, Option.getD_some]
      rw [bind_apply, hless]
      have := lessLogin_calm c h d lib p x cfg a (some user) hc ho henc user hk hsec s hs
      revert this
      cases lessSecureLogin h (network c h d cfg lib p x) cfg user (password cfg) s with
      | mk o s' =>
        cases o with
        | error e => exact fun h1 => h1
        | ok done =>
          rintro ⟨rfl, hl, hus⟩
          simp only [if_true, bind_apply, modify_apply, pure_apply]
          exact .inl ⟨rfl, ⟨hl.time, hl.state, hl.insecure, hl.plainly, hl.token⟩, hus ▸ hu, rfl⟩

/-- A login works. -/
theorem ensureHandshake_calm (hc : x.CalmFrom n) (ho : Owned h d cfg) (henc : cfg.encode = utf8) (s : St (World α)) (hs : Ready d cfg n a s) :
    ∃ s', ensureHandshake h (network c h d cfg lib p x) cfg s = (.ok (), s') ∧ Ready d cfg n a s' ∧ s'.phase = .established := by
  unfold ensureHandshake
  simp only [bind_apply, get_apply]
  cases hph : s.phase with
  | established => exact ⟨s, rfl, hs, hph⟩
  | handshakeRequired =>
    simp only [if_true]
    unfold performHandshake
    rw [bind_apply]
    have := probes_calm c h d lib p x cfg a s.username hc ho henc hs.named s ⟨hs.time, hs.state, rfl, hph, hs.less⟩
    revert this
    cases probes h (network c h d cfg lib p x) cfg s with
    | mk o s1 =>
      cases o with
      | error e => exact fun h1 => h1.elim
      | ok f =>
        rintro (⟨rfl, h1, h2, h3⟩ | ⟨user, cn, sn, rfl, h1, h2, h3, h4, h5, h6⟩)
        · exact ⟨s1, rfl, ⟨h1.time, h1.state, h2, fun _ => h1.insecure, fun _ => .inr h1⟩, h3⟩
        · obtain ⟨s', k1, k2, k3, k4⟩ := secure_calm c h d lib p x cfg a hc ho henc h1 user h2 h3 h4 cn sn s1 h5 h6
          exact ⟨s', k1, ⟨k2.time, k2.state, k3 ▸ h4, fun hl => (by rw [k2.sealed] at hl; cases hl), fun _ => .inl k2⟩, k4⟩

end

/-! ## Requests -/

section
variable {α : Type} (c : BlockCipher) (h : Hashes) (d : Device) (lib lib' : JsonText.Lib) (p : Program α)
variable (x : Chance) (creds kept : Option (String × String)) (defaults : String × String) {n : Nat} (a : α)

theorem handleCode_successful {resp : Json} (hr : AesSpec.successful resp = true) {σ : Type} (s : St σ) : handleCode resp s = (.ok (), s) := by
  rcases handleCode_spec resp s with ⟨-, -, h2⟩ | ⟨h1, -⟩
  · exact h2
  · rw [hr] at h1; cases h1

/-- A request in a session of the device. -/
theorem secured_send (hc : x.CalmFrom n) (hp : ∀ j a, JsonText.Proper (p.run j a).1) (j : Json) (hj : JsonText.Proper j) (s : St (World α))
    (hs : Secured d n a s) (hph : s.phase = .established) :
    let cfg := config lib creds kept defaults
    ∃ s', securePassthrough c h (network c h d cfg lib' p x) cfg (utf8 (JsonText.dumps lib j)) s = (.ok (p.run j a).1, s') ∧
      Secured d n (p.run j a).2 s' ∧ s'.phase = .established ∧ s'.username = s.username := by
  intro cfg
  obtain ⟨ses, k, e1, e2, e3, e4, e5, e6, e7, e8⟩ := hs.session
  unfold securePassthrough
  have n1 : need s.session = .ok ses.key := by rw [e3]; rfl
  have n2 : need s.pwdHash = .ok d.stored := by rw [e6]; rfl
  have n3 : need s.localNonce = .ok ses.cnonce := by rw [e5]; rfl
  have n4 : asInt s.seq = .ok k := by rw [e7]; rfl
  have hurl : targetUrl s = .token ses.token := by unfold targetUrl; rw [hph, e2]
  simp only [bind_apply, get_apply, lift_apply, n1, n2, n3, n4, modify_apply, hurl]
  unfold post
  have henv : ∀ body tag, (network c h d cfg lib' p x).post (.token ses.token) body tag s.world =
    exchange c h d cfg lib' p x (.token ses.token) body tag s.world := fun _ _ => rfl
  simp only [henv, exchange_calm c h d lib' p x cfg hc _ _ _ _ hs.time]
  have hh : ∀ ct tag, ct = Crypto.encrypt c ses.key.key ses.key.iv (utf8 (JsonText.dumps lib j)) →
      tag = tagOf h cfg ses.cnonce d.stored (cfg.wrap ct) k →
      handle c h d cfg lib' p x (.token ses.token) (.passthrough ct) (some ⟨k, tag⟩) s.world =
        (sealed c lib' ses.key (p.run j a).1, { s.world with state := (p.run j a).2, session := some { ses with next := k + 1 } }) := by
    rintro ct tag rfl rfl
    simp only [handle, e1, e8, and_self, if_true, Crypto.decrypt_encrypt c _ _ _ e4, Option.bind_some, fromUtf8_utf8,
      JsonText.C70_round_trip lib j hj, hc.plainly _ hs.time, Bool.false_and, Bool.false_eq_true, if_false, hs.state]
  have hgen : ∀ ct, generateTag h cfg (cfg.wrap ct) ses.cnonce d.stored k = tagOf h cfg ses.cnonce d.stored (cfg.wrap ct) k := fun _ => rfl
  simp only [hgen, hh _ _ rfl rfl]
  unfold handleAnswer
  have hok : AesSpec.successful (sealed c lib' ses.key (p.run j a).1).2 = true := rfl
  have h1 : ¬ (sealed c lib' ses.key (p.run j a).1).1 = 500 := by simp [sealed]
  have h2 : ¬ (sealed c lib' ses.key (p.run j a).1).1 ≠ 200 := by simp [sealed]
  simp only [h1, h2, if_false, bind_apply, handleCode_successful hok, lift_apply,
    openAnswer_sealed c lib lib' creds kept defaults e4 _ (hp j a), cfg]
  exact ⟨_, rfl, ⟨Nat.le_succ_of_le hs.time, rfl, hs.sealed, _, _, rfl, e2, e3, e4, e5, e6, rfl, Int.le_refl _⟩, hph, rfl⟩

/-- A request after a less secure login. -/
theorem less_send (cfg : Config) (hc : x.CalmFrom n) (hsucc : Successful p) (j : Json) (hj : JsonText.Proper j) (s : St (World α))
    (hs : Less d n a s) :
    ∃ s', sendUnencrypted (network c h d cfg lib' p x) (utf8 (JsonText.dumps lib j)) s = (.ok (p.run j a).1, s') ∧
      Less d n (p.run j a).2 s' ∧ s'.phase = s.phase ∧ s'.username = s.username := by
  obtain ⟨t, e1, e2⟩ := hs.token
  unfold sendUnencrypted
  simp only [bind_apply, get_apply, e1]
  unfold post
  have henv : ∀ body, (network c h d cfg lib' p x).post (.token t) body none s.world =
    exchange c h d cfg lib' p x (.token t) body none s.world := fun _ => rfl
  have hh : handle c h d cfg lib' p x (.token t) (.plain (utf8 (JsonText.dumps lib j))) none s.world =
      ((200, (p.run j a).1), { s.world with state := (p.run j a).2 }) := by
    simp only [handle, fromUtf8_utf8, Option.bind_some, JsonText.C70_round_trip lib j hj, e2, true_or, if_true, hs.state]
  simp only [henv, exchange_calm c h d lib' p x cfg hc _ _ _ _ hs.time, hh]
  unfold handlePlain
  simp only [ne_eq, not_true_eq_false, if_false, bind_apply, handleCode_successful (hsucc j a), pure_apply]
  exact ⟨_, rfl, ⟨Nat.le_succ_of_le hs.time, rfl, hs.insecure, hs.plainly, t, e1, e2⟩, rfl, rfl⟩

/-- A request on a transport that is ready. -/
theorem ready_send (hc : x.CalmFrom n) (ho : Owned h d (config lib creds kept defaults)) (hp : ∀ j a, JsonText.Proper (p.run j a).1)
    (hsucc : d.secure = false → Successful p) (j : Json) (hj : JsonText.Proper j) (s : St (World α))
    (hs : Ready d (config lib creds kept defaults) n a s) :
    let cfg := config lib creds kept defaults
    ∃ s', SslAes.send c h (network c h d cfg lib' p x) cfg (utf8 (JsonText.dumps lib j)) s = (.ok (p.run j a).1, s') ∧
      Ready d cfg n (p.run j a).2 s' := by
  intro cfg
  obtain ⟨s1, h1, h2, h3⟩ := ensureHandshake_calm c h d lib' p x cfg a hc ho rfl s hs
  unfold SslAes.send
  simp only [bind_apply, h1, get_apply]
  rcases h2.session h3 with hsec | hless
  · rw [hsec.sealed]
    obtain ⟨s', k1, k2, k3, k4⟩ := secured_send c h d lib lib' p x creds kept defaults a hc hp j hj s1 hsec h3
    exact ⟨s', k1, k2.time, k2.state, k4 ▸ h2.named, fun hl => (by rw [k2.sealed] at hl; cases hl), fun _ => .inl k2⟩
  · rw [hless.plainly]
    obtain ⟨s', k1, k2, k3, k4⟩ := less_send c h d lib lib' p x a cfg hc (hsucc hless.insecure) j hj s1 hless
    exact ⟨s', k1, k2.time, k2.state, k4 ▸ h2.named, fun _ => k2.insecure, fun _ => .inr k2⟩

end

end CamEndToEnd
end Kasa
