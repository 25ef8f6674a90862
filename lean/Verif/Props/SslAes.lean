import Verif.Lemmas.SslAes
/-!
# C14 and C49: the camera transport
-/

namespace Kasa.SslAes
open PyM SslAesSpec
open AesSpec (successful refused result)

section
variable {σ : Type} (c : BlockCipher) (h : Hashes) (env : Env σ) (cfg : Config)

theorem history_inv (w : σ) (ops : List Op) :
    Inv c h cfg (fun m => .send m ∈ ops) (history c h env cfg w ops) := by
  suffices hgen : ∀ (todo done : List Op) (s : St σ), Inv c h cfg (fun m => .send m ∈ done ++ todo) s →
      Inv c h cfg (fun m => .send m ∈ done ++ todo) (todo.foldl (step c h env cfg) s) by
    have h0 : Inv c h cfg (fun m => .send m ∈ [] ++ ops) ({ username := cfg.username, world := w } : St σ) := by
      refine ⟨?_, rfl, fun hp => by cases hp⟩
      intro before url body tag out after hlog
      simp at hlog
    exact hgen ops [] _ h0
  intro todo
  induction todo with
  | nil => intro done s hi; exact hi
  | cons op ops ih =>
    intro done s hi
    have hstep : Inv c h cfg (fun m => .send m ∈ done ++ op :: ops) (step c h env cfg s op) := by
      cases op with
      | send m => exact send_inv c h env cfg m (by simp) hi
      | reset => exact reset_inv c h cfg hi
    have := ih (done ++ [op]) (step c h env cfg s op) (by simpa using hstep)
    simpa using this

/-- Every post in every history is one that the observer accepts (in particular, C14 with its exception spelt out: once
a less secure login has succeeded, all requests are sent unencrypted). -/
theorem C14_traffic (w : σ) (ops : List Op) (before after : List Ev) (url : Url) (body : Body) (tag : Option Tag)
    (outcome : Except Exc (Int × Json))
    (hlog : (history c h env cfg w ops).log = before ++ .post url body tag outcome :: after) :
    Allowed c h cfg (fun m => .send m ∈ ops) (observe h cfg before) url body tag :=
  (history_inv c h env cfg w ops).accepted _ _ _ _ _ _ hlog

/-- C14, partial: in every history, with any device, nonces and failures, as long as no less secure login has succeeded,
every application request is sent encrypted with the key of the last secure login (which is still valid: no reset and no
refusal since), to the address given with it, and with the tag for the session's next number.

Missing: after a less secure login has succeeded once, later secure logins do not restore the encryption
(`C14_downgrade`). -/
theorem C14_encrypted_partial (w : σ) (ops : List Op) (before after : List Ev) (url : Url) (body : Body)
    (tag : Option Tag) (outcome : Except Exc (Int × Json))
    (hlog : (history c h env cfg w ops).log = before ++ .post url body tag outcome :: after)
    (hbody : (∃ m, body = .plain m) ∨ (∃ m, body = .passthrough m))
    (hplain : (observe h cfg before).everPlain = false) :
    ∃ m, (observe h cfg before).mode = some (.secure m) ∧
      Encrypted c h cfg (fun m => .send m ∈ ops) m url body tag := by
  have hall := C14_traffic c h env cfg w ops before after url body tag outcome hlog
  have hreq : RequestAllowed c h cfg (fun m => .send m ∈ ops) (observe h cfg before) url body tag := by
    rcases hbody with ⟨m, rfl⟩ | ⟨m, rfl⟩ <;> exact hall
  rcases hreq with ⟨_, hx⟩ | ⟨hf, _⟩
  · exact hx
  · rw [hplain] at hf; cases hf

/-- The device accepted the secure login and announced the first number. -/
def Announces (e : Ev) (n : Int) : Prop :=
  ∃ url user nonce dig tag resp, e = .post url (.digestLogin user nonce dig) tag (.ok (200, resp)) ∧
    successful resp = true ∧ result resp "start_seq" = some (.num n)

/-- The event is a login. -/
def IsLogin : Ev → Prop
  | .post _ (.digestLogin _ _ _) _ _ | .post _ (.md5Login _ _) _ _ => True
  | _ => False

/-- The event is a tagged (encrypted) request. -/
def tagged : Ev → Bool
  | .post _ (.passthrough _) _ _ => true
  | _ => false

theorem observe_next (h : Hashes) (cfg : Config) (mid : List Ev) : ∀ (o : Obs) (n : Int),
    (∀ m, o.mode = some (.secure m) → m.next = .num n) → (∀ t, o.mode ≠ some (.plain t)) →
    (∀ e ∈ mid, ¬ IsLogin e) → ∀ m, (mid.foldl (see h cfg) o).mode = some (.secure m) →
    m.next = .num (n + mid.countP tagged) := by
  induction mid with
  | nil => intro o n hn _ _ m hm; simpa using hn m hm
  | cons e mid ih =>
    intro o n hn hp hl m hm
    have hle := hl e (List.mem_cons_self ..)
    have hlm : ∀ e ∈ mid, ¬ IsLogin e := fun x hx => hl x (List.mem_cons_of_mem _ hx)
    rw [List.foldl_cons] at hm
    have hsame : (see h cfg o e).mode = o.mode ∨ (see h cfg o e).mode = none → tagged e = false →
        m.next = .num (n + (e :: mid).countP tagged) := by
      intro hs ht
      rw [List.countP_cons_of_neg (by simp [ht])]
      refine ih (see h cfg o e) n ?_ ?_ hlm m hm
      · intro m' hm'
        rcases hs with hs | hs
        · rw [hs] at hm'; exact hn m' hm'
        · rw [hs] at hm'; cases hm'
      · intro t hx
        rcases hs with hs | hs
        · rw [hs] at hx; exact hp t hx
        · rw [hs] at hx; cases hx
    cases e with
    | reset => exact hsame (Or.inr rfl) rfl
    | post url body tag out =>
      cases body with
      | probe u nn =>
        refine hsame (Or.inl ?_) rfl
        simp only [see]
        split <;> rfl
      | digestLogin a b d => exact absurd trivial hle
      | md5Login a b => exact absurd trivial hle
      | plain r =>
        refine hsame ?_ rfl
        simp only [see]
        split
        · split
          · exact Or.inr rfl
          · exact Or.inl rfl
        · exact Or.inl rfl
      | passthrough ct =>
        rw [List.countP_cons_of_pos (by rfl)]
        have := ih (see h cfg o (.post url (.passthrough ct) tag out)) (n + 1) ?_ ?_ hlm m hm
        · rw [this]
          congr 1
          omega
        · intro m' hm'
          have hu : ∀ m', o.mode.map Mode.used = some (.secure m') → m'.next = .num (n + 1) := by
            intro m' hm'
            cases ho : o.mode with
            | none => rw [ho] at hm'; cases hm'
            | some x =>
              rw [ho] at hm'
              cases x with
              | plain t => cases hm'
              | secure s =>
                have := hn s ho
                simp only [Option.map_some, Mode.used, this, Option.some.injEq, Mode.secure.injEq] at hm'
                rw [← hm']
          simp only [see] at hm'
          split at hm'
          · split at hm'
            · cases hm'
            · exact hu m' hm'
          · exact hu m' hm'
        · intro t hx
          have hu : o.mode.map Mode.used ≠ some (.plain t) := by
            cases ho : o.mode with
            | none => simp
            | some x =>
              cases x with
              | plain t' => exact absurd ho (hp t')
              | secure s => simp [Mode.used]
          simp only [see] at hx
          split at hx
          · split at hx
            · cases hx
            · exact hu hx
          · exact hu hx

/-- C14: the tagged requests of a session are numbered consecutively, beginning with the number the device announced, in
every history: a tagged request after a login carries the announced number plus the number of tagged requests between,
whatever happened to these. -/
theorem C14_numbers (w : σ) (ops : List Op) (before mid after : List Ev) (login : Ev) (n : Int) (url : Url)
    (ciphertext : Bytes) (tag : Option Tag) (outcome : Except Exc (Int × Json))
    (hlog : (history c h env cfg w ops).log =
      before ++ login :: mid ++ .post url (.passthrough ciphertext) tag outcome :: after)
    (hlogin : Announces login n) (hmid : ∀ e ∈ mid, ¬ IsLogin e) :
    ∃ t, tag = some t ∧ t.seq = n + mid.countP tagged := by
  have hall := C14_traffic c h env cfg w ops (before ++ login :: mid) after url (.passthrough ciphertext) tag outcome hlog
  rcases hall with ⟨_, m, hm, k, ct, msg, hk, _, _, htag, _⟩ | ⟨_, _, _, _, _, hb, _⟩
  · refine ⟨_, htag, ?_⟩
    obtain ⟨url', user, nonce, dig, tag', resp, rfl, hs, hn⟩ := hlogin
    have hobs : observe h cfg (before ++ .post url' (.digestLogin user nonce dig) tag' (.ok (200, resp)) :: mid) =
        mid.foldl (see h cfg) (see h cfg (observe h cfg before)
          (.post url' (.digestLogin user nonce dig) tag' (.ok (200, resp)))) := by
      simp [observe, List.foldl_append]
    rw [hobs] at hm
    have hfirst : (see h cfg (observe h cfg before) (.post url' (.digestLogin user nonce dig) tag' (.ok (200, resp)))).mode =
        started h cfg (observe h cfg before) resp := by
      simp only [see]
      rw [if_pos hs]
    have := observe_next h cfg mid _ n ?_ ?_ hmid m hm
    · rw [hk] at this
      simpa using this
    · intro m' hm'
      rw [hfirst] at hm'
      unfold started at hm'
      rw [hn] at hm'
      split at hm'
      · split at hm'
        · rename_i h1 h2 h3
          cases h2
          simp only [Option.some.injEq, Mode.secure.injEq] at hm'
          rw [← hm']
        · cases hm'
      · cases hm'
    · intro t ht
      rw [hfirst] at ht
      unfold started at ht
      split at ht
      · split at ht
        · simp at ht
        · cases ht
      · cases ht
  · cases hb

/-- C49: the digest of the password is only posted after the device has proved, for the very nonce it is made with, that
it knows the password; and the MD5 hash of a password only when the device's last answer asked for the less secure
login. -/
theorem C49_digest (w : σ) (ops : List Op) (before after : List Ev) (url : Url) (user : Option String)
    (nonce dig : Bytes) (tag : Option Tag) (outcome : Except Exc (Int × Json))
    (hlog : (history c h env cfg w ops).log = before ++ .post url (.digestLogin user nonce dig) tag outcome :: after) :
    DigestAllowed h cfg (observe h cfg before) nonce dig :=
  (C14_traffic c h env cfg w ops before after url _ tag outcome hlog).2

theorem C49_md5 (w : σ) (ops : List Op) (before after : List Ev) (url : Url) (user : String) (hash : Bytes)
    (tag : Option Tag) (outcome : Except Exc (Int × Json))
    (hlog : (history c h env cfg w ops).log = before ++ .post url (.md5Login user hash) tag outcome :: after) :
    Md5Allowed h cfg (observe h cfg before) user hash :=
  (C14_traffic c h env cfg w ops before after url _ tag outcome hlog).2

end

/-! ## Witnesses -/

/-- A device that answers the probes to come as listed: `true` offers the secure login. -/
def sampleEnv : Env (List Bool) where
  post _ body _ w :=
    match body with
    | .probe _ nonce =>
      if w.headD true then
        (.ok (200, .obj [("error_code", .num (-40413)), ("result", .obj [("data", .obj [("nonce", .str "N"),
          ("device_confirm", .str (String.ofList ((proof Crypto.toyHashes nonce [78]
            (sha Crypto.toyHashes [112, 119])).map fun b => Char.ofNat b.toNat)))])])]), w.tail)
      else
        (.ok (200, .obj [("error_code", .num (-40401)), ("result", .obj [("data",
          .obj [("encrypt_type", .arr [.str "1", .str "2"])])])]), w.tail)
    | .digestLogin _ _ _ =>
      (.ok (200, .obj [("error_code", .num 0), ("result", .obj [("start_seq", .num 7), ("stok", .str "S")])]), w)
    | .md5Login _ _ => (.ok (200, .obj [("error_code", .num 0), ("result", .obj [("stok", .str "P")])]), w)
    | _ => (.ok (200, .obj [("error_code", .num 0)]), w)
  nonce w := ([65], w)

/-- Plain ASCII. -/
def sampleConfig : Config where
  creds := some ("user", "pw")
  stored := none
  defaults := ("admin", "def")
  encode s := s.toList.map fun ch => UInt8.ofNat ch.toNat
  wrap b := b
  unb64 _ := none
  decode _ := none
  loads _ := none

/-- What was posted where, and the number in the tag. -/
def posts (log : List Ev) : List (String × Url × Option Int) :=
  log.filterMap fun e => match e with
    | .post url body tag _ => some (match body with
      | .probe _ _ => "probe" | .digestLogin _ _ _ => "digest" | .md5Login _ _ => "md5"
      | .passthrough _ => "encrypted" | .plain _ => "plain", url, tag.map Tag.seq)
    | _ => none

/-- Non-vacuity: a secure login and three numbered requests, then a reset and a new session. -/
example : posts (history Crypto.toyCipher Crypto.toyHashes sampleEnv sampleConfig [true, true]
      [.send [1], .send [2], .send [3], .reset, .send [4]]).log =
    [("probe", .app, none), ("digest", .app, none), ("encrypted", .token (.str "S"), some 7),
     ("encrypted", .token (.str "S"), some 8), ("encrypted", .token (.str "S"), some 9),
     ("probe", .app, none), ("digest", .app, none), ("encrypted", .token (.str "S"), some 7)] := by decide +kernel

/-- Non-vacuity: the less secure login. -/
example : posts (history Crypto.toyCipher Crypto.toyHashes sampleEnv sampleConfig [false] [.send [1]]).log =
    [("probe", .app, none), ("md5", .app, none), ("plain", .token (.str "P"), none)] := by decide +kernel

/-- C14 is false of the code: the device asks for the less secure login once, the transport is reset, the device then
offers the secure login, which succeeds; the request after it is still sent unencrypted. -/
theorem C14_downgrade : ∃ before after message outcome m,
    (history Crypto.toyCipher Crypto.toyHashes sampleEnv sampleConfig [false, true]
      [.send [1], .reset, .send [2]]).log = before ++ .post (.token (.str "S")) (.plain message) none outcome :: after ∧
    (observe Crypto.toyHashes sampleConfig before).mode = some (.secure m) ∧ m.next = .num 7 := by
  refine ⟨(history Crypto.toyCipher Crypto.toyHashes sampleEnv sampleConfig [false, true]
      [.send [1], .reset, .send [2]]).log.dropLast, [], [2], .ok (200, .obj [("error_code", .num 0)]),
      ⟨.str "S", .num 7, [65], sha Crypto.toyHashes [112, 119],
        sessionKey Crypto.toyHashes sampleConfig [65] [78] (sha Crypto.toyHashes [112, 119])⟩, ?_, ?_, rfl⟩
  · decide +kernel
  · have : ∀ m, (match (observe Crypto.toyHashes sampleConfig (history Crypto.toyCipher Crypto.toyHashes sampleEnv
        sampleConfig [false, true] [.send [1], .reset, .send [2]]).log.dropLast).mode with
      | some (.secure m') => decide (m' = m)
      | _ => false) = true → (observe Crypto.toyHashes sampleConfig (history Crypto.toyCipher Crypto.toyHashes sampleEnv
        sampleConfig [false, true] [.send [1], .reset, .send [2]]).log.dropLast).mode = some (.secure m) := by
      intro m hm
      split at hm
      · rename_i m' he
        rw [he]
        simp only [decide_eq_true_eq] at hm
        rw [hm]
      · cases hm
    exact this _ (by decide +kernel)

end Kasa.SslAes
