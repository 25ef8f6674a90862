import Verif.Spec.SslAes
import Verif.Lemmas.Aes
/-!
# Lemmas about the camera transport
-/

namespace Kasa.SslAes
open PyM SslAesSpec
open AesSpec (successful refused result)

variable {σ : Type} (c : BlockCipher) (h : Hashes) (env : Env σ) (cfg : Config)

/-! ## Error codes -/

/-- What the error check does, in terms of the specification, for the value under `error_code`. -/
theorem handleRaw_spec (raw : Option Json) (s : St σ) :
    ((raw == some (.num 0) || raw == some (.bool false)) = true ∧ handleRaw raw s = (.ok (), s)) ∨
    ((raw == some (.num 0) || raw == some (.bool false)) = false ∧ ∃ e b, handleRaw raw s =
      (.error e, if b = true then { s with phase := .handshakeRequired } else s) ∧
      (b = true ↔ ∃ n, raw = some (.num n) ∧ CodesSpec.Authentication n)) := by
  unfold handleRaw
  cases raw with
  | none => right; exact ⟨by decide, .device (some (-100000)), false, rfl, by simp⟩
  | some v =>
    cases v with
    | num n =>
      rw [Codes.readCode_num]
      simp only [Codes.reported_zero_iff]
      by_cases h0 : n = 0
      · left
        subst h0
        exact ⟨by decide, by simp⟩
      · right
        refine ⟨by simp [h0], ?_⟩
        rw [if_neg h0]
        have hcl := Codes.classify_reported n h0
        unfold CodesSpec.expected at hcl
        rw [if_neg h0] at hcl
        by_cases hr : CodesSpec.Retryable n
        · rw [if_pos hr] at hcl
          have hna : ¬ CodesSpec.Authentication n := by
            unfold CodesSpec.Retryable at hr; unfold CodesSpec.Authentication; omega
          simp only [Except.error.injEq] at hcl
          rw [hcl]
          exact ⟨.retryable (some n), false, by simp, by simp [hna]⟩
        · rw [if_neg hr] at hcl
          by_cases ha : CodesSpec.Authentication n
          · rw [if_pos ha] at hcl
            simp only [Except.error.injEq] at hcl
            rw [hcl]
            exact ⟨.auth (some n), true, by simp [bind_apply], by simp [ha]⟩
          · rw [if_neg ha] at hcl
            simp only [Except.error.injEq] at hcl
            rw [hcl]
            exact ⟨.device (some (CodesSpec.reported n)), false, by simp, by simp [ha]⟩
    | bool b =>
      cases b with
      | false => left; exact ⟨by decide, rfl⟩
      | true => right; exact ⟨by decide, .device (some (-100000)), false, rfl, by simp⟩
    | null => right; exact ⟨by decide, .device (some (-100000)), false, rfl, by simp⟩
    | str x => right; exact ⟨by simp, .device (some (-100000)), false, rfl, by simp⟩
    | arr x => right; exact ⟨by simp, .other "TypeError", false, rfl, by simp⟩
    | obj x => right; exact ⟨by simp, .other "TypeError", false, rfl, by simp⟩

/-- What the error check does, in terms of the specification. -/
theorem handleCode_spec (resp : Json) (s : St σ) :
    (successful resp = true ∧ refused resp = false ∧ handleCode resp s = (.ok (), s)) ∨
    (successful resp = false ∧ ∃ e, handleCode resp s =
      (.error e, if refused resp then { s with phase := .handshakeRequired } else s)) := by
  cases resp with
  | obj kvs =>
    rcases handleRaw_spec (Dict.get? kvs "error_code") s with ⟨h1, h2⟩ | ⟨h1, e, b, h2, hb⟩
    · left
      exact ⟨h1, Aes.not_refused_of_successful h1, h2⟩
    · right
      refine ⟨h1, e, ?_⟩
      have h3 : handleCode (.obj kvs) s = handleRaw (Dict.get? kvs "error_code") s := rfl
      rw [h3, h2]
      by_cases hr : refused (.obj kvs) = true
      · rw [if_pos (hb.mpr ((Aes.refused_iff _).mp hr)), if_pos hr]
      · rw [if_neg (fun h => hr ((Aes.refused_iff _).mpr (hb.mp h))), if_neg hr]
  | null => right; exact ⟨rfl, _, rfl⟩
  | bool b => right; exact ⟨rfl, _, rfl⟩
  | num n => right; exact ⟨rfl, _, rfl⟩
  | str x => right; exact ⟨rfl, _, rfl⟩
  | arr x => right; exact ⟨rfl, _, rfl⟩

theorem readCode_eq {raw : Option Json} {n : Int} (h0 : n ≠ 0) (h1 : n ≠ -100000)
    (hr : Codes.readCode raw = .ok n) : raw = some (.num n) := by
  cases raw with
  | none => cases hr; exact absurd rfl h1
  | some v =>
    cases v with
    | num k =>
      unfold Codes.readCode Codes.fromInt Codes.lookupInt at hr
      simp only at hr
      by_cases hk : k ∈ Codes.smartErrorCodes.map Prod.snd
      · rw [if_pos hk] at hr; cases hr; rfl
      · rw [if_neg hk] at hr; cases hr; exact absurd rfl h1
    | bool b =>
      cases b with
      | false =>
        have : Codes.readCode (some (.bool false)) = .ok 0 := rfl
        rw [this] at hr; cases hr; exact absurd rfl h0
      | true =>
        have : Codes.readCode (some (.bool true)) = .ok (-100000) := rfl
        rw [this] at hr; cases hr; exact absurd rfl h1
    | null => cases hr; exact absurd rfl h1
    | str x => cases hr; exact absurd rfl h1
    | arr x => cases hr
    | obj x => cases hr

theorem getOpt_ok {x : Json} {k : String} {v : Option Json} (hg : getOpt x k = .ok v) : x.get? k = v := by
  cases x <;> cases hg
  rfl

theorem getDict_some {x v : Json} {k l : String} {w : Json} (hg : getDict x k = .ok v) (hv : v.get? l = some w) :
    x.get? k = some v := by
  unfold getDict at hg
  cases x with
  | obj kvs =>
    have : getOpt (.obj kvs) k = .ok (Dict.get? kvs k) := rfl
    rw [this] at hg
    cases hx : Dict.get? kvs k with
    | none => rw [hx] at hg; cases hg; cases hv
    | some y => rw [hx] at hg; cases hg; exact hx
  | _ => cases hg

theorem except_bind_ok {α β : Type} {x : Except Exc α} {f : α → Except Exc β} {b : β} (hb : (x >>= f) = .ok b) :
    ∃ a, x = .ok a ∧ f a = .ok b := by
  cases x with
  | ok a => exact ⟨a, rfl, hb⟩
  | error e => cases hb

theorem responseError_eq {resp : Json} {n : Int} (h0 : n ≠ 0) (h1 : n ≠ -100000)
    (hr : responseError resp = .ok n) : resp.get? "error_code" = some (.num n) := by
  unfold responseError at hr
  obtain ⟨v, hv, hr⟩ := except_bind_ok hr
  rw [getOpt_ok hv]
  exact readCode_eq h0 h1 hr

theorem isLessSecure_spec {resp : Json} (hl : isLessSecure resp = .ok true) : AsksForLess resp := by
  unfold isLessSecure at hl
  obtain ⟨code, hcode, hl⟩ := except_bind_ok hl
  split at hl
  · cases hl
  · rename_i hc
    have hc : code = -40401 := by unfold sessionExpired at hc; omega
    subst hc
    refine ⟨responseError_eq (by decide) (by decide) hcode, ?_⟩
    obtain ⟨res, hres, hl⟩ := except_bind_ok hl
    obtain ⟨data, hdata, hl⟩ := except_bind_ok hl
    split at hl
    · cases hl
    · obtain ⟨t, ht, hl⟩ := except_bind_ok hl
      have ht := getOpt_ok ht
      cases t with
      | none => cases hl
      | some t =>
        simp only [pure, Except.pure, Except.ok.injEq, Bool.and_eq_true, Bool.not_eq_true',
          decide_eq_false_iff_not] at hl
        refine ⟨t, ?_, hl.1, hl.2⟩
        have h2 := getDict_some hdata ht
        have h1 := getDict_some hres h2
        unfold datum result
        rw [h1]
        simp only [Option.bind_some]
        rw [h2]
        exact ht

theorem offersSecure_spec {resp : Json} (ho : offersSecure resp = .ok true) :
    resp.get? "error_code" = some (.num (-40413)) := by
  unfold offersSecure at ho
  obtain ⟨code, hcode, ho⟩ := except_bind_ok ho
  split at ho
  · cases ho
  · rename_i hc
    have hc : code = -40413 := by unfold invalidNonce at hc; omega
    subst hc
    exact responseError_eq (by decide) (by decide) hcode

theorem item_ok {x v : Json} {k : String} (hi : item x k = .ok v) : x.get? k = some v := by
  unfold item at hi
  cases hx : x.get? k with
  | none => rw [hx] at hi; cases hi
  | some w => rw [hx] at hi; cases hi; rfl

theorem deviceProof_spec {resp : Json} {n : String} {p : Json} (hp : deviceProof resp = .ok (n, p)) :
    datum resp "nonce" = some (.str n) ∧ datum resp "device_confirm" = some p := by
  unfold deviceProof at hp
  obtain ⟨res, hres, hp⟩ := except_bind_ok hp
  obtain ⟨data, hdata, hp⟩ := except_bind_ok hp
  obtain ⟨nonce, hn, hp⟩ := except_bind_ok hp
  obtain ⟨confirm, hc, hp⟩ := except_bind_ok hp
  have hres := item_ok hres
  have hdata := item_ok hdata
  have hn := item_ok hn
  have hc := item_ok hc
  cases nonce with
  | str t =>
    simp only [pure, Except.pure, Except.ok.injEq, Prod.mk.injEq] at hp
    obtain ⟨rfl, rfl⟩ := hp
    unfold datum result
    rw [hres]
    simp only [Option.bind_some]
    rw [hdata]
    exact ⟨hn, hc⟩
  | _ => cases hp

/-! ## The password -/

theorem pwdToHash_of_username (s : St σ) (hu : nonEmpty s.username ≠ none) : pwdToHash cfg s = password cfg := by
  unfold pwdToHash password
  cases hc : cfg.creds with
  | some x => rfl
  | none =>
    simp only
    cases hu' : nonEmpty s.username with
    | none => exact absurd hu' hu
    | some u =>
      cases hs : cfg.stored with
      | none => rfl
      | some x =>
        simp only [Option.map_some, nonEmpty]
        by_cases hx : x.2 = ""
        · rw [if_pos hx, if_pos hx]
        · rw [if_neg hx, if_neg hx]

theorem pwdToHash_cases (s : St σ) : pwdToHash cfg s = password cfg ∨ pwdToHash cfg s = cfg.defaults.2 := by
  cases hu : nonEmpty s.username with
  | some u => exact Or.inl (pwdToHash_of_username cfg s (by simp [hu]))
  | none =>
    unfold pwdToHash password
    cases hc : cfg.creds with
    | some x => exact Or.inl rfl
    | none =>
      right
      simp only [hu]

theorem checkProof_spec {nonce : Bytes} {resp : Json} {s s' : St σ} {x : Bytes × Bytes × Bytes}
    (hu : nonEmpty s.username ≠ none) (hc : checkProof h cfg nonce resp s = (.ok x, s')) :
    s' = s ∧ x.1 = nonce ∧ proven h cfg nonce resp = some (x.2.1, x.2.2) := by
  unfold checkProof at hc
  obtain ⟨p, s1, h1, hc⟩ := bind_eq_ok hc
  rw [lift_apply] at h1
  obtain ⟨hp, rfl⟩ : deviceProof resp = .ok p ∧ s = s1 := by simpa using h1
  obtain ⟨s2, s3, h2, hc⟩ := bind_eq_ok hc
  rw [get_apply] at h2
  obtain ⟨rfl, rfl⟩ : s = s2 ∧ s = s3 := by simpa using h2
  obtain ⟨hn, hd⟩ := deviceProof_spec hp
  rw [pwdToHash_of_username cfg s hu] at hc
  unfold proven
  rw [hn, hd]
  simp only at hc ⊢
  have hsame : ∀ b, sameText cfg p.2 b = true → ∃ t, p.2 = .str t ∧ cfg.encode t = b := by
    intro b hb
    unfold sameText at hb
    cases hp2 : p.2 with
    | str t => rw [hp2] at hb; exact ⟨t, rfl, by simpa using hb⟩
    | _ => rw [hp2] at hb; cases hb
  have hnot : ∀ b t, p.2 = .str t → sameText cfg p.2 b ≠ true → ¬ cfg.encode t = b := by
    intro b t ht hb
    rw [ht] at hb
    simpa [sameText] using hb
  split at hc
  · rename_i hm
    obtain ⟨t, ht, hb⟩ := hsame _ hm
    rw [ht]
    simp only [pure_apply, Prod.mk.injEq, Except.ok.injEq] at hc
    obtain ⟨rfl, rfl⟩ := hc
    refine ⟨rfl, rfl, ?_⟩
    exact if_pos hb
  · rename_i hm1
    split at hc
    · rename_i hm
      obtain ⟨t, ht, hb⟩ := hsame _ hm
      have := hnot _ t ht hm1
      rw [ht]
      simp only [pure_apply, Prod.mk.injEq, Except.ok.injEq] at hc
      obtain ⟨rfl, rfl⟩ := hc
      refine ⟨rfl, rfl, ?_⟩
      exact (if_neg this).trans (if_pos hb)
    · cases hc

theorem checkProof_error {nonce : Bytes} {resp : Json} (s : St σ) : (checkProof h cfg nonce resp s).2 = s := by
  unfold checkProof
  rw [bind_apply, lift_apply]
  cases deviceProof resp with
  | error e => rfl
  | ok p =>
    simp only [bind_apply, get_apply]
    split
    · rfl
    · split <;> rfl

/-! ## The observer and the invariant -/

theorem observe_append (log : List Ev) (e : Ev) :
    observe h cfg (log ++ [e]) = see h cfg (observe h cfg log) e := by
  simp [observe, List.foldl_append]

/-- What the observer knows in a state. -/
def obs (s : St σ) : Obs := observe h cfg s.log

theorem accepted_snoc {asked : Bytes → Prop} {log : List Ev} {e : Ev} (ha : Accepted c h cfg asked log)
    (he : ∀ url body tag out, e = .post url body tag out → Allowed c h cfg asked (observe h cfg log) url body tag) :
    Accepted c h cfg asked (log ++ [e]) := by
  intro before url body tag out after hlog
  rcases List.eq_nil_or_concat after with rfl | ⟨after', x, rfl⟩
  · have := List.append_inj' hlog (by simp)
    obtain ⟨rfl, h2⟩ := this
    simp only [List.cons.injEq, and_true] at h2
    exact he _ _ _ _ h2
  · have hh : log ++ [e] = (before ++ .post url body tag out :: after') ++ [x] := by
      rw [hlog]; simp
    have := List.append_inj' hh (by simp)
    exact ha before url body tag out after' this.1

/-- The transport's view of an established session agrees with the observer's. -/
structure Ready (s : St σ) (o : Obs) : Prop where
  mode : ∃ m, o.mode = some m ∧ s.token = some m.address
  secure : o.everPlain = false → ∃ m, o.mode = some (.secure m) ∧ s.session = some m.key ∧ m.key.iv.length = 16 ∧
    s.pwdHash = some m.hash ∧ s.localNonce = some m.cnonce ∧ s.seq = m.next

/-- The invariant between the operations. -/
structure Inv (asked : Bytes → Prop) (s : St σ) : Prop where
  accepted : Accepted c h cfg asked s.log
  flag : s.sendSecure = !(obs h cfg s).everPlain
  ready : s.phase = .established → Ready s (obs h cfg s)

/-- The invariant during a handshake. -/
structure Neg (asked : Bytes → Prop) (s : St σ) : Prop where
  accepted : Accepted c h cfg asked s.log
  flag : s.sendSecure = !(obs h cfg s).everPlain
  phase : s.phase = .handshakeRequired

variable {c h cfg}

theorem Neg.inv {asked : Bytes → Prop} {s : St σ} (hn : Neg c h cfg asked s) : Inv c h cfg asked s :=
  ⟨hn.accepted, hn.flag, fun hp => by rw [hn.phase] at hp; cases hp⟩

variable (c h cfg)

/-- A probe was made for the user with the nonce, and answered with the response. -/
def Probed (s : St σ) (user : String) (nonce : Bytes) (resp : Json) : Prop :=
  (obs h cfg s).probe = some (user, nonce, resp)

theorem probe_spec {asked : Bytes → Prop} (user : String) (nonce : Bytes) (u : Option String) :
    Triple (fun s => Neg c h cfg asked s ∧ s.username = u) (probe env user nonce)
      (fun resp s => (Neg c h cfg asked s ∧ s.username = u) ∧ Probed h cfg s user nonce resp)
      (fun _ s => Inv c h cfg asked s) := by
  unfold probe
  refine Triple.bind (R := fun r s => (Neg c h cfg asked s ∧ s.username = u) ∧
    (r.1 = 200 → Probed h cfg s user nonce r.2)) ?_ fun r => ?_
  · rintro s ⟨hn, hu⟩
    unfold post
    cases hp : env.post .app (.probe user nonce) none s.world with
    | mk out w =>
      have hobs : ∀ out : Except Exc (Int × Json),
          obs h cfg { s with world := w, log := s.log ++ [.post .app (.probe user nonce) none out] } =
          see h cfg (obs h cfg s) (.post .app (.probe user nonce) none out) := fun out => observe_append h cfg _ _
      have hneg : ∀ out : Except Exc (Int × Json), Neg c h cfg asked
          { s with world := w, log := s.log ++ [.post .app (.probe user nonce) none out] } := by
        intro out
        refine ⟨accepted_snoc c h cfg hn.accepted ?_, ?_, hn.phase⟩
        · intro url body tag out' he
          cases he
          rfl
        · rw [hobs]
          have : (see h cfg (obs h cfg s) (.post .app (.probe user nonce) none out)).everPlain =
              (obs h cfg s).everPlain := by
            simp only [see]
            split <;> rfl
          rw [this]
          exact hn.flag
      cases out with
      | error e => exact (hneg _).inv
      | ok r =>
        refine ⟨⟨hneg _, hu⟩, fun h200 => ?_⟩
        unfold Probed
        rw [hobs]
        obtain ⟨code, resp⟩ := r
        simp only at h200
        subst h200
        rfl
  · split
    · exact Triple.raise fun s hs => hs.1.1.inv
    · rename_i h200
      exact Triple.pure fun s hs => ⟨hs.1, hs.2 (by omega)⟩

theorem drawNonce_spec {asked : Bytes → Prop} (u : Option String) :
    Triple (fun s => Neg c h cfg asked s ∧ s.username = u) (drawNonce env)
      (fun _ s => Neg c h cfg asked s ∧ s.username = u) (fun _ s => Inv c h cfg asked s) := by
  rintro s ⟨hn, hu⟩
  exact ⟨⟨hn.accepted, hn.flag, hn.phase⟩, hu⟩

/-- After the less secure login. -/
def PlainReady (s : St σ) : Prop := ∃ t, (obs h cfg s).mode = some (.plain t) ∧ (obs h cfg s).everPlain = true ∧
  s.token = some t

theorem lessSecureLogin_spec {asked : Bytes → Prop} (user pw : String) (u : Option String) (nonce : Bytes) (resp : Json)
    (hless : AsksForLess resp) (hpw : pw = password cfg ∨ pw = cfg.defaults.2) :
    Triple (fun s => (Neg c h cfg asked s ∧ s.username = u) ∧ Probed h cfg s user nonce resp)
      (lessSecureLogin h env cfg user pw)
      (fun done s => ((Neg c h cfg asked s ∧ s.username = u) ∧ Probed h cfg s user nonce resp) ∧
        (done = true → PlainReady h cfg s))
      (fun _ s => Inv c h cfg asked s) := by
  rintro s ⟨⟨hn, hu⟩, hprobed⟩
  unfold lessSecureLogin
  rw [bind_apply]
  unfold post
  cases hp : env.post .app (.md5Login user (md5Hex h (cfg.encode pw))) none s.world with
  | mk out w =>
    have hobs : ∀ out : Except Exc (Int × Json), observe h cfg
        (s.log ++ [.post .app (.md5Login user (md5Hex h (cfg.encode pw))) none out]) =
        see h cfg (obs h cfg s) (.post .app (.md5Login user (md5Hex h (cfg.encode pw))) none out) :=
      fun out => observe_append h cfg _ _
    have hacc : ∀ out : Except Exc (Int × Json), Accepted c h cfg asked
        (s.log ++ [.post .app (.md5Login user (md5Hex h (cfg.encode pw))) none out]) := by
      intro out
      refine accepted_snoc c h cfg hn.accepted ?_
      intro url body tag out' he
      cases he
      refine ⟨rfl, nonce, resp, hprobed, hless, ?_⟩
      rcases hpw with rfl | rfl
      · exact Or.inl rfl
      · exact Or.inr rfl
    -- nothing learnt by the observer, nothing changed
    have hsame : ∀ out : Except Exc (Int × Json),
        see h cfg (obs h cfg s) (.post .app (.md5Login user (md5Hex h (cfg.encode pw))) none out) = obs h cfg s →
        Neg c h cfg asked { s with world := w, log := s.log ++ [.post .app (.md5Login user (md5Hex h (cfg.encode pw))) none out] } := by
      intro out hsee
      refine ⟨hacc out, ?_, hn.phase⟩
      unfold obs
      rw [hobs, hsee]
      exact hn.flag
    have hsamep : ∀ out : Except Exc (Int × Json),
        see h cfg (obs h cfg s) (.post .app (.md5Login user (md5Hex h (cfg.encode pw))) none out) = obs h cfg s →
        Probed h cfg { s with world := w, log := s.log ++ [.post .app (.md5Login user (md5Hex h (cfg.encode pw))) none out] }
          user nonce resp := by
      intro out hsee
      unfold Probed obs
      rw [hobs, hsee]
      exact hprobed
    cases out with
    | error e =>
      exact (hsame _ rfl).inv
    | ok r =>
      obtain ⟨code, answer⟩ := r
      simp only
      unfold finishLessSecure
      by_cases h200 : code = 200
      · subst h200
        have hsee : see h cfg (obs h cfg s) (.post .app (.md5Login user (md5Hex h (cfg.encode pw))) none (.ok (200, answer))) =
            plainStarted (obs h cfg s) answer := rfl
        rw [if_neg (by simp)]
        rw [bind_apply, lift_apply]
        cases hcode : getOpt answer "error_code" with
        | error e =>
          refine (hsame _ ?_).inv
          rw [hsee]
          unfold plainStarted successful
          cases answer with
          | obj kvs => cases hcode
          | _ => rfl
        | ok code =>
          have hcode' := getOpt_ok hcode
          simp only
          by_cases hz : code = some (.num 0) ∨ code = some (.bool false)
          · rw [if_pos hz]
            have hsucc : successful answer = true := by
              unfold successful
              rw [hcode']
              rcases hz with rfl | rfl <;> rfl
            rw [bind_apply, lift_apply]
            cases hres : getDict answer "result" with
            | error e => simp only; refine (hsame _ ?_).inv; cases answer <;> first | rfl | cases hcode | skip
                         unfold getDict getOpt at hres
                         rename_i kvs
                         simp only at hres
                         split at hres
                         · cases hres
                         · cases hres
                         · rename_i hh; cases hh
            | ok res =>
              simp only
              rw [bind_apply, lift_apply]
              -- the token the observer sees
              have hstok : ∀ t, res.get? "stok" = some t ↔ result answer "stok" = some t := by
                intro t
                unfold result
                unfold getDict at hres
                cases answer with
                | obj kvs =>
                  have : getOpt (.obj kvs) "result" = .ok (Dict.get? kvs "result") := rfl
                  rw [this] at hres
                  have hget : (Json.obj kvs).get? "result" = Dict.get? kvs "result" := rfl
                  rw [hget]
                  cases hx : Dict.get? kvs "result" with
                  | none => rw [hx] at hres; cases hres; simp [Json.get?]
                  | some y => rw [hx] at hres; cases hres; simp
                | _ => cases hres
              have hnone : (∀ t, res.get? "stok" = some t → t.truthy = false) →
                  see h cfg (obs h cfg s)
                    (.post .app (.md5Login user (md5Hex h (cfg.encode pw))) none (.ok (200, answer))) = obs h cfg s := by
                intro hf
                rw [hsee]
                unfold plainStarted
                rw [if_pos hsucc]
                cases hr : result answer "stok" with
                | none => rfl
                | some t => simp [hf t ((hstok t).mpr hr)]
              cases hst : getOpt res "stok" with
              | error e =>
                simp only
                refine (hsame _ (hnone ?_)).inv
                intro t ht
                cases res with
                | obj kvs => cases hst
                | _ => cases ht
              | ok stok =>
                have hst := getOpt_ok hst
                simp only
                cases stok with
                | none =>
                  have hno := hnone (by intro t ht; rw [hst] at ht; cases ht)
                  exact ⟨⟨⟨hsame _ hno, hu⟩, hsamep _ hno⟩, fun hd => by cases hd⟩
                | some t =>
                  simp only
                  by_cases ht : t.truthy = true
                  · rw [if_pos ht]
                    have hob : observe h cfg (s.log ++ [.post .app (.md5Login user (md5Hex h (cfg.encode pw))) none
                        (.ok (200, answer))]) = { obs h cfg s with mode := some (.plain t), everPlain := true } := by
                      rw [hobs, hsee]
                      unfold plainStarted
                      rw [if_pos hsucc, (hstok t).mp hst]
                      simp [ht]
                    refine ⟨⟨⟨⟨hacc _, ?_, hn.phase⟩, hu⟩, ?_⟩, fun _ => ⟨t, ?_, ?_, rfl⟩⟩
                    · unfold obs; rw [hob]; rfl
                    · unfold Probed obs; rw [hob]; exact hprobed
                    · unfold obs; rw [hob]
                    · unfold obs; rw [hob]
                  · rw [if_neg ht]
                    have hno := hnone (by intro t' ht'; rw [hst] at ht'; cases ht'; simpa using ht)
                    exact ⟨⟨⟨hsame _ hno, hu⟩, hsamep _ hno⟩, fun hd => by cases hd⟩
          · rw [if_neg hz]
            have hno : see h cfg (obs h cfg s)
                (.post .app (.md5Login user (md5Hex h (cfg.encode pw))) none (.ok (200, answer))) = obs h cfg s := by
              rw [hsee]
              unfold plainStarted
              have : successful answer = false := by
                unfold successful
                rw [hcode']
                simp only [not_or] at hz
                simp [hz.1, hz.2]
              simp [this]
            exact ⟨⟨⟨hsame _ hno, hu⟩, hsamep _ hno⟩, fun hd => by cases hd⟩
      · rw [if_pos (by simpa using h200)]
        refine (hsame _ ?_).inv
        simp only [see]
        split
        · rename_i hh; cases hh; exact absurd rfl h200
        · rfl

/-! ## The handshake -/

/-- The first probe, when there was one, is the last one observed. -/
def FirstOk (first : Option (Bytes × Json)) (s : St σ) : Prop :=
  ∀ n resp, first = some (n, resp) → ∃ u, s.username = some u ∧ Probed h cfg s u n resp

theorem firstProbe_spec {asked : Bytes → Prop} :
    Triple (fun s => Neg c h cfg asked s) (firstProbe env)
      (fun first s => Neg c h cfg asked s ∧ FirstOk h cfg first s) (fun _ s => Inv c h cfg asked s) := by
  unfold firstProbe
  refine Triple.bind (R := fun s0 s => Neg c h cfg asked s ∧ s.username = s0.username) ?_ fun s0 => ?_
  · exact Triple.get fun s hs => ⟨hs, rfl⟩
  cases hu : nonEmpty s0.username with
  | none => exact Triple.pure fun s hs => ⟨hs.1, fun n resp hf => by cases hf⟩
  | some u =>
    simp only
    have hu' : s0.username = some u := by
      unfold nonEmpty at hu
      split at hu
      · split at hu
        · cases hu
        · rename_i h1 _; rw [h1]; exact hu
      · cases hu
    refine Triple.bind (drawNonce_spec c h env cfg s0.username) fun nonce => ?_
    refine Triple.bind (probe_spec c h env cfg u nonce s0.username) fun resp => ?_
    refine Triple.pure ?_
    rintro s ⟨⟨hn, hsu⟩, hp⟩
    refine ⟨hn, ?_⟩
    intro n r hf
    cases hf
    exact ⟨u, by rw [hsu, hu'], hp⟩

theorem userLessSecure_spec {asked : Bytes → Prop} (first : Option (Bytes × Json)) :
    Triple (fun s => Neg c h cfg asked s ∧ FirstOk h cfg first s) (userLessSecure h env cfg first)
      (fun done s => (Neg c h cfg asked s ∧ FirstOk h cfg first s) ∧ (done = true → PlainReady h cfg s))
      (fun _ s => Inv c h cfg asked s) := by
  unfold userLessSecure
  have hno : Triple (fun s : St σ => Neg c h cfg asked s ∧ FirstOk h cfg first s) (pure false)
      (fun done s => (Neg c h cfg asked s ∧ FirstOk h cfg first s) ∧ (done = true → PlainReady h cfg s))
      (fun _ s => Inv c h cfg asked s) := Triple.pure fun s hs => ⟨hs, fun hd => by cases hd⟩
  cases first with
  | none => exact hno
  | some f =>
    obtain ⟨nonce, resp⟩ := f
    simp only
    split
    · exact hno
    refine Triple.bind (R := fun less s => (Neg c h cfg asked s ∧ FirstOk h cfg (some (nonce, resp)) s) ∧
      isLessSecure resp = .ok less) ?_ fun less => ?_
    · exact Triple.lift (fun a s ha hs => ⟨hs, ha⟩) (fun e s _ hs => hs.1.inv)
    split
    · exact hno.conseq (fun s hs => hs.1) (fun _ _ hq => hq) (fun _ _ he => he)
    rename_i hless
    refine Triple.bind (R := fun _ s => (Neg c h cfg asked s ∧ FirstOk h cfg (some (nonce, resp)) s) ∧
      isLessSecure resp = .ok less) ?_ fun inner => ?_
    · exact Triple.lift (fun a s ha hs => hs) (fun e s _ hs => hs.1.1.inv)
    split
    · exact hno.conseq (fun s hs => hs.1) (fun _ _ hq => hq) (fun _ _ he => he)
    refine Triple.bind (R := fun s0 s => (Neg c h cfg asked s ∧ FirstOk h cfg (some (nonce, resp)) s) ∧
      isLessSecure resp = .ok less ∧ s = s0) ?_ fun s0 => ?_
    · exact Triple.get fun s hs => ⟨hs.1, hs.2, rfl⟩
    rintro s ⟨⟨hn, hf⟩, hl, rfl⟩
    have hl' : isLessSecure resp = .ok true := by
      rw [hl]
      cases less with
      | true => rfl
      | false => exact absurd rfl hless
    obtain ⟨u, hu, hp⟩ := hf nonce resp rfl
    have := lessSecureLogin_spec c h env cfg (asked := asked) (s.username.getD "") (pwdToHash cfg s) s.username nonce resp
      (isLessSecure_spec hl') (pwdToHash_cases cfg s) s ⟨⟨hn, rfl⟩, by rw [hu]; exact hp⟩
    revert this
    cases lessSecureLogin h env cfg (s.username.getD "") (pwdToHash cfg s) s with
    | mk r s' =>
      cases r with
      | error e => intro h; exact h
      | ok done =>
        rintro ⟨⟨⟨hn', hu'⟩, hp'⟩, hd⟩
        refine ⟨⟨hn', ?_⟩, hd⟩
        intro n r hnr
        cases hnr
        exact ⟨u, by rw [hu', hu], by rw [hu] at hp'; exact hp'⟩

/-- What is known about the offer found by the probes. -/
def FoundOk (f : Found) (s : St σ) : Prop :=
  ∀ resp, f.resp = some resp → f.code = some invalidNonce → noOffer invalidNonce (some resp) = .ok false →
    resp.get? "error_code" = some (.num (-40413)) ∧ ∃ user, Probed h cfg s user f.nonce resp

theorem firstFound_spec {first : Option (Bytes × Json)} {nonce : Bytes} {f : Found}
    (ho : firstOffers first = .ok false) (hf : firstFound nonce first = .ok f) (s : St σ) : FoundOk h cfg f s := by
  intro resp hr hc hno
  exfalso
  unfold firstFound at hf
  cases first with
  | none => cases hf; cases hr
  | some x =>
    obtain ⟨n, r⟩ := x
    simp only at hf
    unfold firstOffers at ho
    simp only at ho
    cases ht : r.truthy with
    | false =>
      rw [ht] at hf
      simp only [Bool.false_eq_true, if_false, Except.ok.injEq] at hf
      subst hf
      cases hc
    | true =>
      rw [ht] at hf ho
      simp only [if_true] at hf ho
      cases hcode : responseError r with
      | error e => rw [hcode] at hf; cases hf
      | ok code =>
        rw [hcode] at hf
        cases hf
        simp only [Option.some.injEq] at hr hc
        subst hr
        subst hc
        unfold offersSecure at ho
        rw [hcode] at ho
        obtain ⟨code', hcode', ho⟩ := except_bind_ok ho
        cases hcode'
        rw [if_neg (by simp)] at ho
        unfold noOffer at hno
        simp only at hno
        rw [if_neg (by simp), if_neg (by simp [ht])] at hno
        cases hres : r.get? "result" with
        | none => rw [hres] at ho; cases ho
        | some res =>
          rw [hres] at ho
          simp only at ho
          have h1 : getDict r "result" = .ok res := by
            cases r with
            | obj kvs =>
              unfold getDict getOpt
              have hres' : Dict.get? kvs "result" = some res := hres
              simp only [hres']
            | _ => cases hres
          obtain ⟨data, hd, ho⟩ := except_bind_ok ho
          obtain ⟨res', h1', hno⟩ := except_bind_ok hno
          rw [h1] at h1'
          cases h1'
          obtain ⟨data', hd', hno⟩ := except_bind_ok hno
          rw [hd] at hd'
          cases hd'
          obtain ⟨b, hb, hno⟩ := except_bind_ok hno
          rw [ho] at hb
          cases hb
          cases hno

/-- The state after the probes. -/
def ProbesOk (asked : Bytes → Prop) (found : Option Found) (s : St σ) : Prop :=
  match found with
  | none => Inv c h cfg asked s ∧ s.phase = .established
  | some f => Neg c h cfg asked s ∧ FoundOk h cfg f s

theorem plainReady_inv {asked : Bytes → Prop} {s : St σ} (hn : Neg c h cfg asked s) (hp : PlainReady h cfg s)
    (u : Option String) : Inv c h cfg asked { s with username := u, phase := .established } := by
  obtain ⟨t, h1, h2, h3⟩ := hp
  refine ⟨hn.accepted, hn.flag, fun _ => ⟨⟨.plain t, h1, h3⟩, fun hf => ?_⟩⟩
  have h2' : (obs h cfg { s with username := u, phase := .established }).everPlain = true := h2
  rw [h2'] at hf
  cases hf

theorem defaultProbe_spec {asked : Bytes → Prop} (first : Option (Bytes × Json)) (ho : firstOffers first = .ok false) :
    Triple (fun s => Neg c h cfg asked s) (defaultProbe h env cfg first) (ProbesOk c h cfg asked)
      (fun _ s => Inv c h cfg asked s) := by
  unfold defaultProbe
  have hfound : ∀ nonce, Triple (fun s : St σ => Neg c h cfg asked s)
      (lift (firstFound nonce first) >>= fun found => pure (some found)) (ProbesOk c h cfg asked)
      (fun _ s => Inv c h cfg asked s) := by
    intro nonce
    refine Triple.bind (R := fun f s => Neg c h cfg asked s ∧ FoundOk h cfg f s) ?_ fun f => ?_
    · exact Triple.lift (fun f s hf hs => ⟨hs, firstFound_spec h cfg ho hf s⟩) (fun e s _ hs => hs.inv)
    · exact Triple.pure fun s hs => hs
  intro s0 hs0
  refine Triple.bind (drawNonce_spec c h env cfg (asked := asked) s0.username) (fun nonce => ?_) s0 ⟨hs0, rfl⟩
  refine Triple.bind (probe_spec c h env cfg cfg.defaults.1 nonce s0.username) fun resp => ?_
  refine Triple.bind (R := fun offers s => ((Neg c h cfg asked s ∧ s.username = s0.username) ∧
      Probed h cfg s cfg.defaults.1 nonce resp) ∧ offersSecure resp = .ok offers) ?_ fun offers => ?_
  · exact Triple.lift (fun a s ha hs => ⟨hs, ha⟩) (fun e s _ hs => hs.1.1.inv)
  split
  · rename_i hoff
    subst hoff
    refine Triple.bind (R := fun _ s => (Neg c h cfg asked s ∧ Probed h cfg s cfg.defaults.1 nonce resp) ∧
      offersSecure resp = .ok true) ?_ fun _ => ?_
    · exact Triple.modify fun s hs => ⟨⟨⟨hs.1.1.1.accepted, hs.1.1.1.flag, hs.1.1.1.phase⟩, hs.1.2⟩, hs.2⟩
    · refine Triple.pure ?_
      rintro s ⟨⟨hn, hp⟩, hof⟩
      refine ⟨hn, ?_⟩
      intro r hr _ _
      simp only [Option.some.injEq] at hr
      subst hr
      exact ⟨offersSecure_spec hof, cfg.defaults.1, hp⟩
  refine Triple.bind (R := fun less s => ((Neg c h cfg asked s ∧ s.username = s0.username) ∧
      Probed h cfg s cfg.defaults.1 nonce resp) ∧ isLessSecure resp = .ok less) ?_ fun less => ?_
  · exact Triple.lift (fun a s ha hs => ⟨hs.1, ha⟩) (fun e s _ hs => hs.1.1.1.inv)
  split
  · exact (hfound nonce).conseq (fun s hs => hs.1.1.1) (fun _ _ hq => hq) (fun _ _ he => he)
  rename_i hless
  refine Triple.bind (R := fun s1 s => (((Neg c h cfg asked s ∧ s.username = s0.username) ∧
      Probed h cfg s cfg.defaults.1 nonce resp) ∧ isLessSecure resp = .ok less) ∧ s = s1) ?_ fun s1 => ?_
  · exact Triple.get fun s hs => ⟨hs, rfl⟩
  refine Triple.bind (R := fun done s => Neg c h cfg asked s ∧ (done = true → PlainReady h cfg s)) ?_ fun done => ?_
  · rintro s ⟨⟨⟨⟨hn, hu⟩, hp⟩, hl⟩, rfl⟩
    have hl' : isLessSecure resp = .ok true := by
      rw [hl]
      cases less with
      | true => rfl
      | false => exact absurd rfl hless
    have := lessSecureLogin_spec c h env cfg (asked := asked) cfg.defaults.1 (pwdToHash cfg s) s.username nonce resp
      (isLessSecure_spec hl') (pwdToHash_cases cfg s) s ⟨⟨hn, rfl⟩, hp⟩
    revert this
    cases lessSecureLogin h env cfg cfg.defaults.1 (pwdToHash cfg s) s with
    | mk r s' =>
      cases r with
      | error e => intro h; exact h
      | ok done => rintro ⟨⟨⟨hn', _⟩, _⟩, hd⟩; exact ⟨hn', hd⟩
  split
  · rename_i hd
    refine Triple.bind (R := fun _ s => Inv c h cfg asked s ∧ s.phase = .established) ?_ fun _ => ?_
    · exact Triple.modify fun s hs => ⟨plainReady_inv c h cfg hs.1 (hs.2 hd) _, rfl⟩
    · exact Triple.pure fun s hs => hs
  · exact (hfound nonce).conseq (fun s hs => hs.1) (fun _ _ hq => hq) (fun _ _ he => he)

theorem probes_spec {asked : Bytes → Prop} :
    Triple (fun s => Neg c h cfg asked s) (probes h env cfg) (ProbesOk c h cfg asked)
      (fun _ s => Inv c h cfg asked s) := by
  unfold probes
  refine Triple.bind (firstProbe_spec c h env cfg) fun first => ?_
  refine Triple.bind (userLessSecure_spec c h env cfg first) fun done => ?_
  split
  · rename_i hd
    refine Triple.bind (R := fun _ s => Inv c h cfg asked s ∧ s.phase = .established) ?_ fun _ => ?_
    · exact Triple.modify fun s hs => ⟨plainReady_inv c h cfg hs.1.1 (hs.2 hd) s.username, rfl⟩
    · exact Triple.pure fun s hs => hs
  refine Triple.bind (R := fun offers s => (Neg c h cfg asked s ∧ FirstOk h cfg first s) ∧
    firstOffers first = .ok offers) ?_ fun offers => ?_
  · exact Triple.lift (fun a s ha hs => ⟨hs.1, ha⟩) (fun e s _ hs => hs.1.1.inv)
  cases offers with
  | true =>
    cases first with
    | none =>
      intro s hs
      cases hs.2
    | some f =>
      obtain ⟨nonce, resp⟩ := f
      simp only
      refine Triple.pure ?_
      rintro s ⟨⟨hn, hf⟩, ho⟩
      refine ⟨hn, ?_⟩
      intro r hr _ _
      simp only [Option.some.injEq] at hr
      subst hr
      obtain ⟨u, _, hp⟩ := hf nonce resp rfl
      refine ⟨offersSecure_spec ?_, u, hp⟩
      unfold firstOffers at ho
      simp only at ho
      split at ho
      · exact ho
      · cases ho
  | false =>
    intro s hs
    have : defaultProbe h env cfg first = (match false, first with
      | true, some (nonce, resp) => pure (some ⟨nonce, some invalidNonce, some resp⟩)
      | _, _ => defaultProbe h env cfg first) := by cases first <;> rfl
    exact defaultProbe_spec c h env cfg first hs.2 s hs.1.1

/-- The device has proved that it knows the password. -/
def ProofOk (x : Bytes × Bytes × Bytes) (s : St σ) : Prop :=
  ∃ user resp, Probed h cfg s user x.1 resp ∧ resp.get? "error_code" = some (.num (-40413)) ∧
    proven h cfg x.1 resp = some (x.2.1, x.2.2)

theorem finishHandshake1_spec {asked : Bytes → Prop} (f : Found) :
    Triple (fun s : St σ => Neg c h cfg asked s ∧ FoundOk h cfg f s) (finishHandshake1 h cfg f)
      (fun x s => Neg c h cfg asked s ∧ ProofOk h cfg x s) (fun _ s => Inv c h cfg asked s) := by
  unfold finishHandshake1
  refine Triple.bind (R := fun s0 s => (Neg c h cfg asked s ∧ FoundOk h cfg f s) ∧ s = s0) ?_ fun s0 => ?_
  · exact Triple.get fun s hs => ⟨hs, rfl⟩
  split
  · exact Triple.raise fun s hs => hs.1.1.inv
  rename_i hu
  cases hcode : f.code with
  | none => exact Triple.raise fun s hs => hs.1.1.inv
  | some code =>
    simp only
    refine Triple.bind (R := fun bad s => ((Neg c h cfg asked s ∧ FoundOk h cfg f s) ∧ s = s0) ∧
      noOffer code f.resp = .ok bad) ?_ fun bad => ?_
    · exact Triple.lift (fun a s ha hs => ⟨hs, ha⟩) (fun e s _ hs => hs.1.1.inv)
    split
    · refine Triple.bind (R := fun _ s => Neg c h cfg asked s) ?_ fun e => ?_
      · exact Triple.lift (fun a s _ hs => hs.1.1.1) (fun e s _ hs => hs.1.1.1.inv)
      · exact Triple.raise fun s hs => hs.inv
    rename_i hbad
    cases hresp : f.resp with
    | none => exact Triple.raise fun s hs => hs.1.1.1.inv
    | some resp =>
      simp only
      rintro s ⟨⟨⟨hn, hf⟩, rfl⟩, hno⟩
      have hbad' : bad = false := by simpa using hbad
      subst hbad'
      have hc : code = invalidNonce := by
        unfold noOffer at hno
        by_cases hc : code ≠ invalidNonce
        · rw [if_pos hc] at hno; cases hno
        · simpa using hc
      subst hc
      obtain ⟨hec, user, hp⟩ := hf resp hresp hcode hno
      have herr := checkProof_error h cfg (nonce := f.nonce) (resp := resp) s
      cases hck : checkProof h cfg f.nonce resp s with
      | mk r s' =>
        rw [hck] at herr
        simp only at herr
        cases r with
        | error e => subst herr; exact hn.inv
        | ok x =>
          obtain ⟨rfl, hx, hpr⟩ := checkProof_spec h cfg hu hck
          exact ⟨hn, user, resp, by rw [hx]; exact hp, hec, by rw [hx]; exact hpr⟩

theorem resultOf_ok_result {resp v : Json} {k : String} (hr : Aes.resultOf resp k = .ok v) : result resp k = some v :=
  Aes.resultOf_ok hr

theorem performHandshake2_spec {asked : Bytes → Prop} (x : Bytes × Bytes × Bytes) :
    Triple (fun s => Neg c h cfg asked s ∧ ProofOk h cfg x s) (performHandshake2 h env cfg x.1 x.2.1 x.2.2)
      (fun _ s => Inv c h cfg asked s ∧ s.phase = .established) (fun _ s => Inv c h cfg asked s) := by
  rintro s ⟨hn, user, offer, hp, hec, hpr⟩
  unfold performHandshake2
  rw [bind_apply, get_apply]
  simp only
  rw [bind_apply]
  unfold post
  cases hpost : env.post .app (.digestLogin s.username x.1 (digestPassword h x.1 x.2.1 x.2.2)) none s.world with
  | mk out w =>
    generalize hbody : Body.digestLogin s.username x.1 (digestPassword h x.1 x.2.1 x.2.2) = body
    rw [hbody] at hpost
    have hobs : ∀ out : Except Exc (Int × Json), observe h cfg (s.log ++ [.post .app body none out]) =
        see h cfg (obs h cfg s) (.post .app body none out) := fun out => observe_append h cfg _ _
    have hacc : ∀ out : Except Exc (Int × Json), Accepted c h cfg asked (s.log ++ [.post .app body none out]) := by
      intro out
      refine accepted_snoc c h cfg hn.accepted ?_
      intro url body' tag out' he
      cases he
      rw [← hbody]
      exact ⟨rfl, user, offer, x.2.1, x.2.2, hp, hec, hpr, rfl⟩
    have hever : ∀ out : Except Exc (Int × Json),
        (observe h cfg (s.log ++ [.post .app body none out])).everPlain = (obs h cfg s).everPlain := by
      intro out
      rw [hobs, ← hbody]
      simp only [see]
      split
      · split <;> rfl
      · rfl
    have hneg : ∀ out : Except Exc (Int × Json), Neg c h cfg asked
        { s with world := w, log := s.log ++ [.post .app body none out] } := by
      intro out
      refine ⟨hacc out, ?_, hn.phase⟩
      unfold obs
      rw [hever]
      exact hn.flag
    cases out with
    | error e => exact (hneg _).inv
    | ok r =>
      obtain ⟨code, resp⟩ := r
      simp only
      unfold finishHandshake2
      by_cases h200 : code = 200
      · subst h200
        rw [if_neg (by simp), bind_apply, lift_apply]
        cases hre : responseError resp with
        | error e => exact (hneg _).inv
        | ok rc =>
          simp only
          by_cases hrc : rc = invalidNonce
          · rw [if_pos hrc]
            exact (hneg _).inv
          · rw [if_neg hrc, bind_apply]
            rcases handleCode_spec resp { s with world := w, log := s.log ++ [.post .app body none (.ok (200, resp))] } with
              ⟨hs, _, hh⟩ | ⟨hs, e, hh⟩
            · rw [hh]
              simp only
              rw [bind_apply, lift_apply]
              cases hseq : Aes.resultOf resp "start_seq" with
              | error e => exact (hneg _).inv
              | ok seq =>
                simp only
                rw [bind_apply, modify_apply]
                simp only
                rw [bind_apply, lift_apply]
                cases hst : Aes.resultOf resp "stok" with
                | error e =>
                  refine Neg.inv ⟨hacc _, ?_, hn.phase⟩
                  unfold obs
                  rw [hever]
                  exact hn.flag
                | ok stok =>
                  simp only
                  rw [modify_apply]
                  have hob : observe h cfg (s.log ++ [.post .app body none (.ok (200, resp))]) =
                      { obs h cfg s with mode := some (.secure ⟨stok, seq, x.1, x.2.2,
                        sessionKey h cfg x.1 x.2.1 x.2.2⟩) } := by
                    rw [hobs, ← hbody]
                    simp only [see]
                    rw [if_pos hs]
                    unfold started
                    have hp' : (obs h cfg s).probe = some (user, x.1, offer) := hp
                    rw [hp']
                    simp only
                    rw [hpr, Aes.resultOf_ok hseq, Aes.resultOf_ok hst]
                  refine ⟨⟨hacc _, ?_, fun _ => ⟨?_, ?_⟩⟩, rfl⟩
                  · unfold obs
                    rw [hever]
                    exact hn.flag
                  · unfold obs
                    rw [hob]
                    exact ⟨_, rfl, rfl⟩
                  · intro _
                    unfold obs
                    rw [hob]
                    refine ⟨_, rfl, rfl, ?_, rfl, rfl, rfl⟩
                    simp [sessionKey, h.sha256_length]
            · rw [hh]
              simp only
              split
              · refine Neg.inv ⟨hacc _, ?_, rfl⟩
                unfold obs
                rw [hever]
                exact hn.flag
              · exact (hneg _).inv
      · rw [if_pos (by simpa using h200)]
        exact (hneg _).inv

theorem ensureHandshake_spec {asked : Bytes → Prop} :
    Triple (fun s => Inv c h cfg asked s) (ensureHandshake h env cfg)
      (fun _ s => Inv c h cfg asked s ∧ s.phase = .established) (fun _ s => Inv c h cfg asked s) := by
  unfold ensureHandshake
  refine Triple.bind (R := fun s0 s => Inv c h cfg asked s ∧ s = s0) ?_ fun s0 => ?_
  · exact Triple.get fun s hs => ⟨hs, rfl⟩
  split
  · rename_i hph
    unfold performHandshake
    refine Triple.bind (R := ProbesOk c h cfg asked) ?_ fun found => ?_
    · refine (probes_spec c h env cfg).conseq ?_ (fun _ _ hq => hq) (fun _ _ he => he)
      rintro s ⟨hi, rfl⟩
      exact ⟨hi.accepted, hi.flag, hph⟩
    · cases found with
      | none => exact Triple.pure fun s hs => hs
      | some f =>
        refine Triple.bind (finishHandshake1_spec c h cfg f) fun x => ?_
        exact performHandshake2_spec c h env cfg x
  · rename_i hph
    refine Triple.pure ?_
    rintro s ⟨hi, rfl⟩
    refine ⟨hi, ?_⟩
    cases hx : s.phase with
    | handshakeRequired => exact absurd hx hph
    | established => rfl

/-! ## Requests -/

/-- The state after a request was answered and checked. -/
theorem handleCode_inv {asked : Bytes → Prop} (resp : Json) (s : St σ) (hacc : Accepted c h cfg asked s.log)
    (hflag : s.sendSecure = !(obs h cfg s).everPlain)
    (hready : refused resp = false → s.phase = .established → Ready s (obs h cfg s)) :
    Inv c h cfg asked (handleCode resp s).2 := by
  rcases handleCode_spec resp s with ⟨_, hr, hh⟩ | ⟨_, e, hh⟩
  · rw [hh]
    exact ⟨hacc, hflag, hready hr⟩
  · rw [hh]
    simp only
    split
    · exact ⟨hacc, hflag, fun hp => by cases hp⟩
    · rename_i hr
      exact ⟨hacc, hflag, hready (by simpa using hr)⟩

theorem targetUrl_established (s : St σ) (hp : s.phase = .established) {t : Json} (ht : s.token = some t) :
    targetUrl s = .token t := by
  unfold targetUrl
  rw [hp, ht]

theorem secure_inv {asked : Bytes → Prop} (request : Bytes) (hasked : asked request) (s : St σ)
    (hi : Inv c h cfg asked s) (hp : s.phase = .established) (hsec : s.sendSecure = true) :
    Inv c h cfg asked (securePassthrough c h env cfg request s).2 := by
  have hever : (obs h cfg s).everPlain = false := by
    have := hi.flag
    rw [hsec] at this
    simpa using this.symm
  have hready := hi.ready hp
  obtain ⟨m, hm, hses, hiv, hpwd, hnon, hseq⟩ := hready.secure hever
  obtain ⟨m', hm', htok⟩ := hready.mode
  rw [hm] at hm'
  simp only [Option.some.injEq] at hm'
  subst hm'
  unfold securePassthrough
  rw [bind_apply, get_apply]
  simp only
  rw [bind_apply, lift_apply, hses]
  simp only [need]
  rw [bind_apply, lift_apply, hpwd]
  simp only
  rw [bind_apply, lift_apply, hnon]
  simp only
  rw [bind_apply, lift_apply]
  cases hint : asInt s.seq with
  | error e => exact hi
  | ok n =>
    have hnext : m.next = .num n := by
      rw [← hseq]
      cases hs : s.seq with
      | num k => rw [hs] at hint; cases hint; rfl
      | _ => rw [hs] at hint; cases hint
    simp only
    rw [bind_apply, modify_apply]
    simp only
    rw [targetUrl_established s hp htok]
    generalize hct : Crypto.encrypt c m.key.key m.key.iv request = ct
    generalize htag : (some ⟨n, generateTag h cfg (cfg.wrap ct) m.cnonce m.hash n⟩ : Option Tag) = tag
    rw [bind_apply]
    unfold post
    simp only
    cases hpost : env.post (.token (Mode.secure m).address) (.passthrough ct) tag s.world with
    | mk out w =>
      simp only
      have hobs : ∀ out : Except Exc (Int × Json),
          observe h cfg (s.log ++ [.post (.token (Mode.secure m).address) (.passthrough ct) tag out]) =
          see h cfg (obs h cfg s) (.post (.token (Mode.secure m).address) (.passthrough ct) tag out) :=
        fun out => observe_append h cfg _ _
      have hacc : ∀ out : Except Exc (Int × Json),
          Accepted c h cfg asked (s.log ++ [.post (.token (Mode.secure m).address) (.passthrough ct) tag out]) := by
        intro out
        refine accepted_snoc c h cfg hi.accepted ?_
        intro url body tag' out' he
        cases he
        left
        refine ⟨hever, m, hm, n, ct, request, hnext, rfl, rfl, htag.symm, ?_, hasked⟩
        rw [← hct]
        exact Crypto.decrypt_encrypt c _ _ _ hiv
      have hkeep : ∀ out : Except Exc (Int × Json), (∀ resp, out = .ok (200, resp) → refused resp = false) →
          observe h cfg (s.log ++ [.post (.token (Mode.secure m).address) (.passthrough ct) tag out]) =
          { obs h cfg s with mode := some (.secure { m with next := .num (n + 1) }) } := by
        intro out hout
        have hused : (Mode.secure m).used = .secure { m with next := .num (n + 1) } := by
          simp only [Mode.used, hnext]
        rw [hobs]
        simp only [see]
        split
        · rename_i resp
          rw [hout resp rfl]
          simp only [Bool.false_eq_true, if_false]
          rw [hm, Option.map_some, hused]
        · rw [hm, Option.map_some, hused]
      have hev : ∀ out : Except Exc (Int × Json),
          (observe h cfg (s.log ++ [.post (.token (Mode.secure m).address) (.passthrough ct) tag out])).everPlain =
          (obs h cfg s).everPlain := by
        intro out
        rw [hobs]
        simp only [see]
        split
        · split <;> rfl
        · rfl
      have hrd : ∀ out : Except Exc (Int × Json), (∀ resp, out = .ok (200, resp) → refused resp = false) →
          ∀ s' : St σ, s'.log = s.log ++ [.post (.token (Mode.secure m).address) (.passthrough ct) tag out] →
          s'.token = s.token → s'.session = s.session → s'.pwdHash = s.pwdHash → s'.localNonce = s.localNonce →
          s'.seq = .num (n + 1) → Ready s' (obs h cfg s') := by
        intro out hout s' h1 h2 h3 h4 h5 h6
        unfold obs
        rw [h1, hkeep out hout]
        exact ⟨⟨_, rfl, by rw [h2]; exact htok⟩,
          fun _ => ⟨_, rfl, by rw [h3]; exact hses, hiv, by rw [h4]; exact hpwd, by rw [h5]; exact hnon, h6⟩⟩
      have hinv : ∀ out : Except Exc (Int × Json), (∀ resp, out = .ok (200, resp) → refused resp = false) →
          Inv c h cfg asked { s with
            seq := .num (n + 1), world := w
            log := s.log ++ [.post (.token (Mode.secure m).address) (.passthrough ct) tag out] } := by
        intro out hout
        refine ⟨hacc out, ?_, fun _ => hrd out hout _ rfl rfl rfl rfl rfl rfl⟩
        unfold obs
        rw [hev]
        exact hi.flag
      cases out with
      | error e => exact hinv _ (fun resp hr => by cases hr)
      | ok r =>
        obtain ⟨code, resp⟩ := r
        simp only
        unfold handleAnswer
        by_cases h500 : code = 500
        · rw [if_pos h500]
          exact hinv _ (fun resp' hr => by cases hr; cases h500)
        · rw [if_neg h500]
          by_cases h200 : code = 200
          · subst h200
            rw [if_neg (by simp), bind_apply]
            have hcode := handleCode_inv c h cfg (asked := asked) resp { s with
                seq := .num (n + 1), world := w
                log := s.log ++ [.post (.token (Mode.secure m).address) (.passthrough ct) tag (.ok (200, resp))] }
              (hacc _) (by unfold obs; rw [hev]; exact hi.flag)
              (fun hr _ => hrd _ (fun resp' he => by cases he; exact hr) _ rfl rfl rfl rfl rfl rfl)
            revert hcode
            cases handleCode resp { s with
                seq := .num (n + 1), world := w
                log := s.log ++ [.post (.token (Mode.secure m).address) (.passthrough ct) tag (.ok (200, resp))] } with
            | mk r' s' =>
              cases r' with
              | error e => intro hh; exact hh
              | ok a =>
                intro hh
                simp only [lift_apply]
                exact hh
          · rw [if_pos (by simpa using h200)]
            exact hinv _ (fun resp' hr => by cases hr; exact absurd rfl h200)

theorem plain_inv {asked : Bytes → Prop} (request : Bytes) (hasked : asked request) (s : St σ)
    (hi : Inv c h cfg asked s) (hp : s.phase = .established) (hsec : s.sendSecure = false) :
    Inv c h cfg asked (sendUnencrypted env request s).2 := by
  have hever : (obs h cfg s).everPlain = true := by
    have := hi.flag
    rw [hsec] at this
    simpa using this.symm
  obtain ⟨m, hm, htok⟩ := (hi.ready hp).mode
  unfold sendUnencrypted
  rw [bind_apply, get_apply]
  simp only
  rw [htok]
  simp only
  rw [bind_apply]
  unfold post
  cases hpost : env.post (.token m.address) (.plain request) none s.world with
  | mk out w =>
    simp only
    have hobs : ∀ out : Except Exc (Int × Json),
        observe h cfg (s.log ++ [.post (.token m.address) (.plain request) none out]) =
        see h cfg (obs h cfg s) (.post (.token m.address) (.plain request) none out) :=
      fun out => observe_append h cfg _ _
    have hacc : ∀ out : Except Exc (Int × Json),
        Accepted c h cfg asked (s.log ++ [.post (.token m.address) (.plain request) none out]) := by
      intro out
      refine accepted_snoc c h cfg hi.accepted ?_
      intro url body tag' out' he
      cases he
      right
      exact ⟨hever, m, request, hm, rfl, rfl, rfl, hasked⟩
    have hev : ∀ out : Except Exc (Int × Json),
        (observe h cfg (s.log ++ [.post (.token m.address) (.plain request) none out])).everPlain =
        (obs h cfg s).everPlain := by
      intro out
      rw [hobs]
      simp only [see]
      split
      · split <;> rfl
      · rfl
    have hrd : ∀ out : Except Exc (Int × Json), (∀ resp, out = .ok (200, resp) → refused resp = false) →
        Ready { s with world := w, log := s.log ++ [.post (.token m.address) (.plain request) none out] }
          (observe h cfg (s.log ++ [.post (.token m.address) (.plain request) none out])) := by
      intro out hout
      have : observe h cfg (s.log ++ [.post (.token m.address) (.plain request) none out]) = obs h cfg s := by
        rw [hobs]
        simp only [see]
        split
        · rename_i resp
          rw [hout resp rfl]
          rfl
        · rfl
      rw [this]
      exact ⟨⟨m, hm, htok⟩, fun hf => by rw [hever] at hf; cases hf⟩
    have hinv : ∀ out : Except Exc (Int × Json), (∀ resp, out = .ok (200, resp) → refused resp = false) →
        Inv c h cfg asked { s with world := w, log := s.log ++ [.post (.token m.address) (.plain request) none out] } := by
      intro out hout
      refine ⟨hacc out, ?_, fun _ => hrd out hout⟩
      unfold obs
      rw [hev]
      exact hi.flag
    cases out with
    | error e => exact hinv _ (fun resp hr => by cases hr)
    | ok r =>
      obtain ⟨code, resp⟩ := r
      simp only
      unfold handlePlain
      by_cases h200 : code = 200
      · subst h200
        rw [if_neg (by simp), bind_apply]
        have hcode := handleCode_inv c h cfg (asked := asked) resp
          { s with world := w, log := s.log ++ [.post (.token m.address) (.plain request) none (.ok (200, resp))] }
          (hacc _) (by unfold obs; rw [hev]; exact hi.flag)
          (fun hr _ => hrd _ (fun resp' he => by cases he; exact hr))
        revert hcode
        cases handleCode resp
          { s with world := w, log := s.log ++ [.post (.token m.address) (.plain request) none (.ok (200, resp))] } with
        | mk r' s' =>
          cases r' with
          | error e => intro hh; exact hh
          | ok a => intro hh; exact hh
      · rw [if_pos (by simpa using h200)]
        exact hinv _ (fun resp' hr => by cases hr; exact absurd rfl h200)

theorem send_inv {asked : Bytes → Prop} (request : Bytes) (hasked : asked request) {s : St σ}
    (hi : Inv c h cfg asked s) : Inv c h cfg asked (send c h env cfg request s).2 := by
  unfold send
  have he := ensureHandshake_spec c h env cfg (asked := asked) s hi
  rw [bind_apply]
  revert he
  cases ensureHandshake h env cfg s with
  | mk r s1 =>
    cases r with
    | error e => intro he; exact he
    | ok a =>
      rintro ⟨hi1, hp1⟩
      simp only
      rw [bind_apply, get_apply]
      simp only
      cases hsec : s1.sendSecure with
      | true => exact secure_inv c h env cfg request hasked s1 hi1 hp1 hsec
      | false => exact plain_inv c h env cfg request hasked s1 hi1 hp1 hsec

theorem reset_inv {asked : Bytes → Prop} {s : St σ} (hi : Inv c h cfg asked s) :
    Inv c h cfg asked (reset s).2 := by
  unfold reset
  rw [modify_apply]
  refine ⟨accepted_snoc c h cfg hi.accepted (fun url body tag out he => by cases he), ?_, fun hp => by cases hp⟩
  unfold obs
  rw [observe_append]
  exact hi.flag

end Kasa.SslAes
