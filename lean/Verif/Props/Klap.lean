import Verif.Lemmas.Klap
/-!
# C11, C12, C13 for the KLAP transport
-/

namespace Kasa.Klap
open PyM KlapSpec

/-! ## C11: sequence numbers and decryption -/

section
variable (c : BlockCipher) (h : Hashes)

/-- Encrypt one message after the other. -/
def encryptAll (s : Session) : List Bytes → List (Except Exc (Bytes × Int))
  | [] => []
  | m :: ms => (s.encrypt c h m).1 :: encryptAll (s.encrypt c h m).2 ms

/-- C11: in a session the `i`-th message (counted from 0) gets the number `start + i + 1` and the device, checking the
signature and decrypting with the keys it derives itself, reads exactly that message; when this number no longer fits
in 32 bits the request fails instead. -/
theorem C11_sequence (l r a : Bytes) (ms : List Bytes) (i : Nat) (m : Bytes) (hm : ms[i]? = some m) :
    ((keys h l r a).start + i + 1 < 2 ^ 31 → ∃ p,
      (encryptAll c h (Session.new h l r a) ms)[i]? = some (.ok (p, (keys h l r a).start + i + 1)) ∧
      deviceReads c h (keys h l r a) ((keys h l r a).start + i + 1) p = some m) ∧
    (¬ (keys h l r a).start + i + 1 < 2 ^ 31 →
      (encryptAll c h (Session.new h l r a) ms)[i]? = some (.error (.other "struct.error"))) := by
  obtain ⟨k1, k2, k3, k4⟩ := new_eq h l r a
  have hstart := keys_start_range h l r a
  have hiv := keys_iv_length h l r a
  have hk : HasKeys (keys h l r a) (Session.new h l r a) := ⟨k1, k2, k3⟩
  generalize Session.new h l r a = s at hk k4 ⊢
  generalize keys h l r a = k at hk k4 hstart hiv ⊢
  suffices hgen : ∀ (ms : List Bytes) (s : Session) (i : Nat), HasKeys k s → k.start ≤ s.seq → ms[i]? = some m →
      (s.seq + i + 1 < 2 ^ 31 → ∃ p, (encryptAll c h s ms)[i]? = some (.ok (p, s.seq + i + 1)) ∧
        deviceReads c h k (s.seq + i + 1) p = some m) ∧
      (¬ s.seq + i + 1 < 2 ^ 31 → (encryptAll c h s ms)[i]? = some (.error (.other "struct.error"))) by
    obtain ⟨g1, g2⟩ := hgen ms s i hk (by omega) hm
    rw [k4] at g1 g2
    exact ⟨g1, g2⟩
  intro ms
  induction ms with
  | nil => intro s i _ _ hm; simp at hm
  | cons x xs ih =>
    intro s i hk hs hm
    cases he : s.encrypt c h x with
    | mk res s' =>
    have hseq' : s'.seq = s.seq + 1 := by
      cases res with
      | ok pn => obtain ⟨p, n⟩ := pn; exact (encrypt_reads c h hiv hk he).2.1
      | error e => exact (encrypt_fails c h hk he).2.1
    have hk' : HasKeys k s' := by
      cases res with
      | ok pn => obtain ⟨p, n⟩ := pn; exact (encrypt_reads c h hiv hk he).2.2.1
      | error e => exact (encrypt_fails c h hk he).2.2.1
    cases i with
    | zero =>
      simp only [List.getElem?_cons_zero, Option.some.injEq] at hm
      subst hm
      simp only [encryptAll, List.getElem?_cons_zero, he, Option.some.injEq]
      cases res with
      | ok pn =>
        obtain ⟨p, n⟩ := pn
        obtain ⟨rfl, _, _, hr, packed, hp, _⟩ := encrypt_reads c h hiv hk he
        refine ⟨fun _ => ⟨p, by simp, by simpa using hr⟩, ?_⟩
        intro hge
        unfold Crypto.packI32 at hp
        split at hp
        · rename_i hr; exfalso; exact hge (by simpa using hr.2)
        · cases hp
      | error e =>
        obtain ⟨rfl, _, _, hp⟩ := encrypt_fails c h hk he
        refine ⟨?_, fun _ => rfl⟩
        intro hlt
        unfold Crypto.packI32 at hp
        split at hp
        · cases hp
        · rename_i hr; exfalso; apply hr; constructor <;> first | omega | (simpa using hlt)
    | succ i =>
      simp only [List.getElem?_cons_succ] at hm
      have := ih s' i hk' (by omega) hm
      simp only [encryptAll, List.getElem?_cons_succ, he]
      have e1 : s'.seq + (i : Int) + 1 = s.seq + ((i + 1 : Nat) : Int) + 1 := by omega
      rw [e1] at this
      exact this

/-- C11: no two requests of a session use the same IV. -/
theorem C11_distinct_ivs (k : Keys) (m n : Int) (p q : Bytes) (hm : Crypto.packI32 m = some p)
    (hn : Crypto.packI32 n = some q) (hiv : k.iv ++ p = k.iv ++ q) : m = n := by
  have := List.append_cancel_left hiv
  subst this
  exact Crypto.packI32_injective hm hn

/-- C11: after sending a request, the client recovers the device's reply to it, whatever the reply and its 32-byte
signature. -/
theorem C11_reply (l r a : Bytes) (s s' : Session) (hk : HasKeys (keys h l r a) s) (msg p : Bytes) (n : Int)
    (he : s.encrypt c h msg = (.ok (p, n), s')) (signature answer reply : Bytes) (hsig : signature.length = 32)
    (hr : deviceAnswers c (keys h l r a) n signature answer = some reply) : s'.decrypt c reply = .ok answer := by
  have hiv := keys_iv_length h l r a
  obtain ⟨_, _, hk', _, packed, hp, hciph⟩ := encrypt_reads c h hiv hk he
  unfold deviceAnswers at hr
  rw [hp] at hr
  simp only [Option.map_some, Option.some.injEq] at hr
  subst hr
  unfold Session.decrypt
  rw [hciph]
  simp only [List.drop_left' hsig, hk'.1]
  rw [Crypto.decrypt_encrypt c _ _ _ (by rw [List.length_append, hiv, Crypto.packI32_length hp])]

/-- C11: once the counter is exhausted, every later request of the session fails as well. -/
theorem C11_exhausted_stays_exhausted (s : Session) (hs : 2 ^ 31 ≤ s.seq + 1) (msg : Bytes) :
    (s.encrypt c h msg).1 = .error (.other "struct.error") ∧ 2 ^ 31 ≤ (s.encrypt c h msg).2.seq + 1 := by
  have : Crypto.packI32 (s.seq + 1) = none := by
    unfold Crypto.packI32
    rw [if_neg (by omega)]
  unfold Session.encrypt
  simp only [this]
  exact ⟨trivial, by omega⟩

end

/-! ## Histories of a transport object -/

section
variable {σ : Type} (c : BlockCipher) (h : Hashes) (env : Env σ) (cfg : Config)
variable (decode : Bytes → Option String) (json : String → Option Json)

theorem history_inv (w : σ) (ops : List Op) :
    Inv c h env cfg (fun m => .send m ∈ ops) (history c h env cfg decode json w ops) := by
  suffices hgen : ∀ (todo done : List Op) (s : St σ), Inv c h env cfg (fun m => .send m ∈ done ++ todo) s →
      Inv c h env cfg (fun m => .send m ∈ done ++ todo) (todo.foldl (step c h env cfg decode json) s) by
    have h0 : Inv c h env cfg (fun m => .send m ∈ [] ++ ops) ({ world := w } : St σ) := by
      refine ⟨?_, by simp⟩
      intro before n p ck out after hlog
      simp at hlog
    exact hgen ops [] _ h0
  intro todo
  induction todo with
  | nil => intro done s hi; exact hi
  | cons op ops ih =>
    intro done s hi
    have hstep : Inv c h env cfg (fun m => .send m ∈ done ++ op :: ops) (step c h env cfg decode json s op) := by
      cases op with
      | send m => exact send_inv c h env cfg decode json m (by simp) hi
      | reset => exact reset_inv c h env cfg hi
    have := ih (done ++ [op]) (step c h env cfg decode json s op) (by simpa using hstep)
    simpa using this

/-- C13 (KLAP): in every history of calls on one transport object, with any device, clock, cookies and failures, a
request is only posted when a handshake was completed (handshake1 and handshake2 both answered 200) since the last
reset and since the last refused request (403), and, unless that handshake was made for this very request, a clock
reading taken for this request was before the session's deadline (announced lifetime minus 20 minutes). -/
theorem C13_klap_live_session (w : σ) (ops : List Op) (before after : List Ev) (n : Int) (payload : Bytes)
    (cookies : Option String) (outcome : Except Exc (Int × Bytes))
    (hlog : (history c h env cfg decode json w ops).log =
      before ++ .post (.request n) payload cookies outcome :: after) :
    (observe env.int before).up = true ∧ ((observe env.int before).fresh = true ∨
      ∃ t d, (observe env.int before).now = some t ∧ (observe env.int before).deadline = some d ∧ t < d) := by
  have := (history_inv c h env cfg decode json w ops).accepted _ _ _ _ _ _ hlog
  exact ⟨this.up, this.live⟩

/-- C11 and C12 in every history: a posted request carries one of the messages the caller asked to send, encrypted
with the keys derived from the seeds of the last handshake and the first candidate credentials (user's, defaults,
blank) that the device proved to know in that handshake, and its number is the next one of that session. -/
theorem C12_klap_matched_credentials (w : σ) (ops : List Op) (before after : List Ev) (n : Int) (payload : Bytes)
    (cookies : Option String) (outcome : Except Exc (Int × Bytes))
    (hlog : (history c h env cfg decode json w ops).log =
      before ++ .post (.request n) payload cookies outcome :: after) :
    ∃ localSeed data a message, .send message ∈ ops ∧ (observe env.int before).seeds = some (localSeed, data) ∧
      data.length = 48 ∧ FirstProved cfg localSeed (data.take 16) (data.drop 16) a ∧
      n = (keys h localSeed (data.take 16) a).start + (observe env.int before).count + 1 ∧
      deviceReads c h (keys h localSeed (data.take 16) a) n payload = some message :=
  ((history_inv c h env cfg decode json w ops).accepted _ _ _ _ _ _ hlog).content

/-- C12: a handshake that completes consists of exactly these exchanges: handshake1 with a fresh seed, answered 200
with a proof of knowledge of a candidate, and handshake2 with the client's proof for that same candidate, answered
200; the session is the one for that candidate. -/
theorem C12_completed (s s' : St σ) (he : performHandshake h env cfg s = (.ok (), s')) :
    ∃ l data a data2 cookie timeout t, data.length = 48 ∧ FirstProved cfg l (data.take 16) (data.drop 16) a ∧
      s'.log = s.log ++
        [.post .handshake1 l none (.ok (200, data)), .cookie "TP_SESSIONID" cookie, .cookie "TIMEOUT" timeout, .clock t,
         .post .handshake2 (cfg.variant.handshake2 l (data.take 16) a) (if cookie = some "" then none else cookie)
           (.ok (200, data2))] ∧
      ∃ ses, s'.session = some ses ∧ HasKeys (keys h l (data.take 16) a) ses ∧
        ses.seq = (keys h l (data.take 16) a).start := by
  obtain ⟨l, data, a, data2, cookie, timeout, n, t, w, h1, h2, _, rfl⟩ := performHandshake_ok h env cfg he
  obtain ⟨k1, k2, k3, k4⟩ := new_eq h l (data.take 16) a
  exact ⟨l, data, a, data2, cookie, timeout, t, h1, h2, rfl, _, rfl, ⟨k1, k2, k3⟩, k4⟩

/-- C12: when the device's proof fits none of the candidates, the handshake raises `AuthenticationError`, nothing more
is sent and no session is established. -/
theorem C12_refused (s : St σ) (l data : Bytes) (w1 w2 : σ) (htok : env.token s.world = (l, w1))
    (hpost : env.post .handshake1 l none w1 = (.ok (200, data), w2)) (hlen : data.length = 48)
    (hno : ∀ a ∈ candidates cfg, cfg.variant.handshake1 l (data.take 16) a ≠ data.drop 16) :
    ∃ s', performHandshake h env cfg s = (.error (.auth none), s') ∧ s'.handshakeDone = false ∧
      s'.log = s.log ++ [.post .handshake1 l none (.ok (200, data))] := by
  have hm : matchHash cfg l (data.take 16) (data.drop 16) = .error (.auth none) := by
    cases hx : matchHash cfg l (data.take 16) (data.drop 16) with
    | error e => rw [(matchHash_error cfg hx).1]
    | ok a =>
      obtain ⟨before, after, h1, h2, _⟩ := matchHash_ok cfg hx
      exact absurd h2 (hno a (by rw [h1]; simp))
  have h1 : performHandshake1 env cfg { s with handshakeDone := false, expireAt := none, sessionCookie := none } =
      (.error (.auth none),
       { s with
         handshakeDone := false, expireAt := none, sessionCookie := none, world := w2,
         log := s.log ++ [.post .handshake1 l none (.ok (200, data))] }) := by
    unfold performHandshake1
    rw [bind_apply]
    simp only [token, htok]
    rw [bind_apply, post_apply]
    simp only [hpost]
    rw [if_neg (by simp), if_neg (by rw [List.length_drop, hlen]; simp), bind_apply, lift_apply, hm]
  refine ⟨(performHandshake h env cfg s).2, ?_⟩
  have : performHandshake h env cfg s = (.error (.auth none),
      { s with
        handshakeDone := false, expireAt := none, sessionCookie := none, world := w2,
        log := s.log ++ [.post .handshake1 l none (.ok (200, data))] }) := by
    unfold performHandshake
    rw [bind_apply, modify_apply]
    simp only
    rw [bind_error h1]
  rw [this]
  exact ⟨rfl, rfl, rfl⟩

/-- C12: a handshake that fails, for whatever reason, leaves the transport without a usable session, and no
application request was sent during it. -/
theorem C12_failed (s s' : St σ) (e : Exc) (he : performHandshake h env cfg s = (.error e, s')) :
    s'.handshakeDone = false ∧ ∃ evs, s'.log = s.log ++ evs ∧
      ∀ ev ∈ evs, ∀ n p ck out, ev ≠ .post (.request n) p ck out := by
  obtain ⟨h1, evs, h2, h3⟩ := performHandshake_error h env cfg he
  refine ⟨h1, evs, h2, ?_⟩
  intro ev hev n p ck out heq
  have := h3 ev hev
  rw [heq] at this
  cases this

/-- The device in the environment is a genuine one of the given kind, that belongs to the owner of the credentials and
uses the seed `r`; it answers handshake2 with 200 only for the proof it expects.  A lifetime it announces is a
number. -/
structure GenuineDevice (d : Device) (creds : Credentials) (r : Bytes) (env : Env σ) : Prop where
  seed : r.length = 16
  hello : ∀ l w, (env.post .handshake1 l none w).1 =
    .ok (200, r ++ d.proof l r (d.stored creds.username creds.password))
  accepts : ∀ l w ck w', (env.token w).1 = l →
    (env.post .handshake2 (d.expects l r (d.stored creds.username creds.password)) ck w').1 = .ok (200, [])
  lifetime : ∀ w v, env.cookie "TIMEOUT" w = some v → v ≠ "" → ∃ n, env.int v = some n

theorem genuine_aux (d : Device) (v : Variant) (creds : Credentials) (r : Bytes) (hash : Option Bytes)
    (defaults : List Credentials) (hgen : GenuineDevice d creds r env)
    (hstored : v.authHash creds = d.stored creds.username creds.password)
    (hproof : ∀ l a, v.handshake1 l r a = d.proof l r a) (hexp : ∀ l a, v.handshake2 l r a = d.expects l r a)
    (hlen : ∀ l a, (d.proof l r a).length = 32) (s : St σ) :
    ∃ s' ses, performHandshake h env (Config.make v (some creds) hash defaults) s = (.ok (), s') ∧
      s'.handshakeDone = true ∧ s'.session = some ses ∧
      HasKeys (keys h (env.token s.world).1 r (d.stored creds.username creds.password)) ses ∧
      ses.seq = (keys h (env.token s.world).1 r (d.stored creds.username creds.password)).start := by
  generalize hcfg : Config.make v (some creds) hash defaults = cfg
  have hv : cfg.variant = v := by rw [← hcfg]; rfl
  have hl : cfg.localHash = d.stored creds.username creds.password := by rw [← hcfg, ← hstored]; rfl
  cases htok : env.token s.world with
  | mk l w1 =>
  cases hp1 : env.post .handshake1 l none w1 with
  | mk o1 w2 =>
  have ho1 := hgen.hello l w1
  rw [hp1] at ho1
  simp only at ho1
  subst ho1
  generalize ha : d.stored creds.username creds.password = a at *
  have h1 : performHandshake1 env cfg { s with handshakeDone := false, expireAt := none, sessionCookie := none } =
      (.ok (l, r, a),
       { s with
         handshakeDone := false, expireAt := none, sessionCookie := none, world := w2,
         log := s.log ++ [.post .handshake1 l none (.ok (200, r ++ d.proof l r a))] }) := by
    unfold performHandshake1
    rw [bind_apply]
    simp only [token, htok]
    rw [bind_apply, post_apply]
    simp only [hp1]
    rw [List.take_left' hgen.seed, List.drop_left' hgen.seed]
    rw [if_neg (by simp), if_neg (by simp [hlen]), bind_apply, lift_apply]
    have hm : matchHash cfg l r (d.proof l r a) = .ok a := by
      unfold matchHash
      rw [hv, hl, if_pos (hproof l a)]
    rw [hm]
    rfl
  unfold performHandshake
  rw [bind_apply, modify_apply]
  simp only
  rw [bind_ok h1]
  simp only [bind_apply, getCookie, modify_apply, lift_apply]
  have hto : ∀ w, ∃ n, timeoutOf env (env.cookie "TIMEOUT" w) = .ok n := by
    intro w
    unfold timeoutOf
    cases hc : env.cookie "TIMEOUT" w with
    | none => exact ⟨_, rfl⟩
    | some x =>
      simp only
      by_cases hx : x = ""
      · rw [if_pos hx]; exact ⟨_, rfl⟩
      · rw [if_neg hx]
        obtain ⟨n, hn⟩ := hgen.lifetime w x hc hx
        rw [hn]
        exact ⟨n, rfl⟩
  obtain ⟨n, hn⟩ := hto w2
  simp only [hn]
  cases hnow : env.now w2 with
  | mk t w3 =>
  simp only [now, hnow]
  unfold performHandshake2
  simp only [bind_apply, get_apply, post_apply]
  have hacc : ∀ ck w', (env.post .handshake2 (cfg.variant.handshake2 l r a) ck w').1 = .ok (200, []) := by
    intro ck w'
    rw [hv, hexp, ← ha]
    exact hgen.accepts l s.world ck w' (by rw [htok])
  simp only [hacc]
  rw [if_neg (by simp)]
  obtain ⟨k1, k2, k3, k4⟩ := new_eq h l r a
  exact ⟨_, _, rfl, rfl, rfl, ⟨k1, k2, k3⟩, k4⟩

/-- C12: a genuine device of version 1 that belongs to the owner of the given credentials completes the handshake, from
whatever state the transport is in, and both sides then hold the same keys. -/
theorem C12_genuine_v1 (creds : Credentials) (r : Bytes) (hash : Option Bytes) (defaults : List Credentials)
    (hgen : GenuineDevice (deviceV1 h) creds r env) (s : St σ) :
    ∃ s' ses, performHandshake h env (Config.make (v1 h) (some creds) hash defaults) s = (.ok (), s') ∧
      s'.handshakeDone = true ∧ s'.session = some ses ∧
      HasKeys (keys h (env.token s.world).1 r ((deviceV1 h).stored creds.username creds.password)) ses ∧
      ses.seq = (keys h (env.token s.world).1 r ((deviceV1 h).stored creds.username creds.password)).start :=
  genuine_aux h env (deviceV1 h) (v1 h) creds r hash defaults hgen rfl (fun _ _ => rfl) (fun _ _ => rfl)
    (fun _ _ => h.sha256_length _) s

/-- C12: the same for version 2. -/
theorem C12_genuine_v2 (creds : Credentials) (r : Bytes) (hash : Option Bytes) (defaults : List Credentials)
    (hgen : GenuineDevice (deviceV2 h) creds r env) (s : St σ) :
    ∃ s' ses, performHandshake h env (Config.make (v2 h) (some creds) hash defaults) s = (.ok (), s') ∧
      s'.handshakeDone = true ∧ s'.session = some ses ∧
      HasKeys (keys h (env.token s.world).1 r ((deviceV2 h).stored creds.username creds.password)) ses ∧
      ses.seq = (keys h (env.token s.world).1 r ((deviceV2 h).stored creds.username creds.password)).start :=
  genuine_aux h env (deviceV2 h) (v2 h) creds r hash defaults hgen rfl
    (fun l a => by show h.sha256 _ = h.sha256 _; rw [List.append_assoc])
    (fun l a => by show h.sha256 _ = h.sha256 _; rw [List.append_assoc])
    (fun _ _ => h.sha256_length _) s

end

/-- Non-vacuity: there is a genuine device of version 2 (that also checks the proof it gets). -/
example : GenuineDevice (σ := Unit) (deviceV2 Crypto.toyHashes) ⟨[117], [112]⟩ (List.replicate 16 7)
    { post := fun url payload _ w =>
        match url with
        | .handshake1 => (.ok (200, List.replicate 16 7 ++ (deviceV2 Crypto.toyHashes).proof payload (List.replicate 16 7)
            ((deviceV2 Crypto.toyHashes).stored [117] [112])), w)
        | .handshake2 => (.ok (if payload = (deviceV2 Crypto.toyHashes).expects (List.replicate 16 3)
            (List.replicate 16 7) ((deviceV2 Crypto.toyHashes).stored [117] [112]) then 200 else 403, []), w)
        | .request _ => (.ok (200, []), w)
      cookie := fun _ _ => none
      now := fun w => (0, w)
      token := fun w => (List.replicate 16 3, w)
      int := fun _ => none } where
  seed := rfl
  hello l w := rfl
  accepts l w ck w' hl := by subst hl; rfl
  lifetime w v hv := by cases hv

/-! ## Examples -/

/-- A device that knows the user's credentials `u`/`p` (version 1), refuses the third request and has a clock that
advances by `dt` at each reading. -/
def sampleEnv (dt : Int) : Env (Int × Nat) where
  post url payload _ w :=
    match url with
    | .handshake1 =>
      (.ok (200, List.replicate 16 7 ++ (v1 Crypto.toyHashes).handshake1 payload (List.replicate 16 7)
        ((v1 Crypto.toyHashes).authHash ⟨[117], [112]⟩)), w)
    | .handshake2 => (.ok (200, []), w)
    | .request _ => (.ok (if w.2 = 2 then 403 else 200, []), (w.1, w.2 + 1))
  cookie name _ := if name = "TIMEOUT" then some "86400" else none
  now w := (w.1 + dt, (w.1 + dt, w.2))
  token w := (List.replicate 16 3, w)
  int _ := some 86400

/-- Non-vacuity: four requests, the third is refused; after it, and only then, a new handshake is made. -/
example : ((history Crypto.toyCipher Crypto.toyHashes (sampleEnv 10)
      (Config.make (v1 Crypto.toyHashes) (some ⟨[117], [112]⟩) none []) (fun _ => none) (fun _ => none) (0, 0)
      [.send [1], .send [2], .send [3], .send [4]]).log.filterMap fun e =>
        match e with | .post u _ _ _ => some u | _ => none) =
    [.handshake1, .handshake2, .request 117901064, .request 117901065, .request 117901066,
     .handshake1, .handshake2, .request 117901064] := by decide +kernel

/-- Non-vacuity: when 40000 s pass between any two clock readings the session runs out. -/
example : ((history Crypto.toyCipher Crypto.toyHashes (sampleEnv 40000)
      (Config.make (v1 Crypto.toyHashes) (some ⟨[117], [112]⟩) none []) (fun _ => none) (fun _ => none) (0, 5)
      [.send [1], .send [2], .send [3], .send [4]]).log.filterMap fun e =>
        match e with | .post u _ _ _ => some u | _ => none) =
    [.handshake1, .handshake2, .request 117901064, .request 117901065, .request 117901066,
     .handshake1, .handshake2, .request 117901064] := by decide +kernel

/-- Non-vacuity of `C12_refused`: other credentials. -/
example : ∀ a ∈ candidates (Config.make (v1 Crypto.toyHashes) (some ⟨[120], [112]⟩) none [⟨[121], []⟩]),
    (v1 Crypto.toyHashes).handshake1 (List.replicate 16 3) (List.replicate 16 7) a ≠
      (v1 Crypto.toyHashes).handshake1 (List.replicate 16 3) (List.replicate 16 7)
        ((v1 Crypto.toyHashes).authHash ⟨[117], [112]⟩) := by decide +kernel

end Kasa.Klap
