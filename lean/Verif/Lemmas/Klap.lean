import Verif.Spec.Klap
/-!
# Lemmas about the KLAP transport
-/

namespace Kasa.Klap
open PyM KlapSpec

variable {σ : Type} (c : BlockCipher) (h : Hashes) (env : Env σ) (cfg : Config)
variable (decode : Bytes → Option String) (json : String → Option Json)

/-! ## Sessions -/

theorem new_eq (l r a : Bytes) :
    (Session.new h l r a).key = (keys h l r a).key ∧ (Session.new h l r a).iv = (keys h l r a).iv ∧
    (Session.new h l r a).sig = (keys h l r a).sig ∧ (Session.new h l r a).seq = (keys h l r a).start := by
  have h1 : ("lsk".toUTF8.toList : Bytes) = lsk := by decide +kernel
  have h2 : ("iv".toUTF8.toList : Bytes) = ivTag := by decide +kernel
  have h3 : ("ldk".toUTF8.toList : Bytes) = ldk := by decide +kernel
  refine ⟨?_, ?_, ?_, ?_⟩
  · simp only [Session.new, keys, h1, List.append_assoc]
  · simp only [Session.new, keys, h2, List.append_assoc]
  · simp only [Session.new, keys, h3, List.append_assoc]
  · simp only [Session.new, keys, h2, List.append_assoc, h.sha256_length]

theorem keys_iv_length (l r a : Bytes) : (keys h l r a).iv.length = 12 := by
  simp [keys, h.sha256_length]

theorem keys_start_range (l r a : Bytes) : -2 ^ 31 ≤ (keys h l r a).start ∧ (keys h l r a).start < 2 ^ 31 := by
  exact Crypto.signed32_range (by simp [h.sha256_length])

/-- The session has the given keys. -/
def HasKeys (k : Keys) (s : Session) : Prop := s.key = k.key ∧ s.iv = k.iv ∧ s.sig = k.sig

theorem encrypt_reads {k : Keys} (hiv : k.iv.length = 12) {s s' : Session} (hk : HasKeys k s) {msg p : Bytes} {n : Int}
    (he : s.encrypt c h msg = (.ok (p, n), s')) :
    n = s.seq + 1 ∧ s'.seq = s.seq + 1 ∧ HasKeys k s' ∧ deviceReads c h k n p = some msg ∧
    ∃ packed, Crypto.packI32 n = some packed ∧ s'.cipher = some (k.iv ++ packed) := by
  unfold Session.encrypt at he
  simp only at he
  cases hp : Crypto.packI32 (s.seq + 1) with
  | none => rw [hp] at he; simp at he
  | some packed =>
    rw [hp] at he
    simp only [Prod.mk.injEq, Except.ok.injEq] at he
    obtain ⟨⟨rfl, rfl⟩, rfl⟩ := he
    obtain ⟨h1, h2, h3⟩ := hk
    refine ⟨rfl, rfl, ⟨h1, h2, h3⟩, ?_, packed, hp, by rw [← h2]⟩
    have hlen : (s.iv ++ packed).length = 16 := by
      rw [List.length_append, h2, hiv, Crypto.packI32_length hp]
    unfold deviceReads
    rw [hp]
    simp only
    rw [List.take_left' (h.sha256_length _), List.drop_left' (h.sha256_length _), ← h3, if_pos rfl, ← h1, ← h2,
      Crypto.decrypt_encrypt c _ _ _ hlen]

theorem encrypt_fails {k : Keys} {s s' : Session} (hk : HasKeys k s) {msg : Bytes} {e : Exc}
    (he : s.encrypt c h msg = (.error e, s')) :
    e = .other "struct.error" ∧ s'.seq = s.seq + 1 ∧ HasKeys k s' ∧ Crypto.packI32 (s.seq + 1) = none := by
  unfold Session.encrypt at he
  simp only at he
  cases hp : Crypto.packI32 (s.seq + 1) with
  | none =>
    rw [hp] at he
    simp only [Prod.mk.injEq, Except.error.injEq] at he
    obtain ⟨rfl, rfl⟩ := he
    exact ⟨rfl, rfl, hk, rfl⟩
  | some packed => rw [hp] at he; simp at he

/-! ## Authentication -/

theorem matchHash_ok {l r sh a : Bytes} (hm : matchHash cfg l r sh = .ok a) : FirstProved cfg l r sh a := by
  unfold matchHash at hm
  split at hm
  · rename_i h1
    cases hm
    exact ⟨[], _, rfl, h1, by simp⟩
  · rename_i h1
    split at hm
    · rename_i d hd
      cases hm
      obtain ⟨hp, before, after, hsplit, hbefore⟩ := List.find?_eq_some_iff_append.mp hd
      refine ⟨cfg.localHash :: before.map cfg.variant.authHash, _, by
        unfold candidates; rw [hsplit, List.map_append, List.map_cons, List.cons_append, List.cons_append,
          List.append_assoc]; rfl, by simpa using hp, ?_⟩
      intro x hx
      rcases List.mem_cons.mp hx with rfl | hx
      · exact h1
      · obtain ⟨y, hy, rfl⟩ := List.mem_map.mp hx
        simpa using hbefore y hy
    · rename_i hd
      split at hm
      · rename_i h2
        cases hm
        refine ⟨cfg.localHash :: cfg.defaults.map cfg.variant.authHash, [], by
          unfold candidates; rw [if_neg h2.1], h2.2, ?_⟩
        intro x hx
        rcases List.mem_cons.mp hx with rfl | hx
        · exact h1
        · obtain ⟨y, hy, rfl⟩ := List.mem_map.mp hx
          have := List.find?_eq_none.mp hd y hy
          simpa using this
      · cases hm

theorem matchHash_error {l r sh : Bytes} {e : Exc} (hm : matchHash cfg l r sh = .error e) :
    e = .auth none ∧ ∀ a ∈ candidates cfg, cfg.variant.handshake1 l r a ≠ sh := by
  unfold matchHash at hm
  split at hm
  · cases hm
  · rename_i h1
    split at hm
    · cases hm
    · rename_i hd
      split at hm
      · cases hm
      · rename_i h2
        cases hm
        refine ⟨rfl, ?_⟩
        intro a ha
        unfold candidates at ha
        rcases List.mem_append.mp ha with ha | ha
        · rcases List.mem_cons.mp ha with rfl | ha
          · exact h1
          · obtain ⟨y, hy, rfl⟩ := List.mem_map.mp ha
            have := List.find?_eq_none.mp hd y hy
            simpa using this
        · split at ha
          · cases ha
          · rename_i h3
            simp only [List.mem_singleton] at ha
            subst ha
            intro h4
            exact h2 ⟨h3, h4⟩

/-! ## The observer -/

theorem observe_append (int : String → Option Int) (log : List Ev) (e : Ev) :
    observe int (log ++ [e]) = see int (observe int log) e := by
  simp [observe, List.foldl_append]

/-- Does the event carry an application request? -/
def Ev.isRequest : Ev → Bool
  | .post (.request _) _ _ _ => true
  | _ => false

theorem accepted_snoc {asked : Bytes → Prop} {log : List Ev} {e : Ev}
    (ha : Accepted c h cfg asked env.int log)
    (he : ∀ n p ck out, e = .post (.request n) p ck out → Allowed c h cfg asked (observe env.int log) n p) :
    Accepted c h cfg asked env.int (log ++ [e]) := by
  intro before n p ck out after hlog
  rcases List.eq_nil_or_concat after with rfl | ⟨after', x, rfl⟩
  · have := List.append_inj' hlog (by simp)
    obtain ⟨rfl, h2⟩ := this
    simp only [List.cons.injEq, and_true] at h2
    exact he _ _ _ _ h2
  · have hh : log ++ [e] = (before ++ .post (.request n) p ck out :: after') ++ [x] := by
      rw [hlog]; simp
    have := List.append_inj' hh (by simp)
    exact ha before n p ck out after' this.1

/-- The invariant that ties the transport's state to what the observer has seen. -/
structure Inv (asked : Bytes → Prop) (s : St σ) : Prop where
  accepted : Accepted c h cfg asked env.int s.log
  session : s.handshakeDone = true → (observe env.int s.log).up = true ∧
    s.expireAt = (observe env.int s.log).deadline ∧
    ∃ l data a ses, (observe env.int s.log).seeds = some (l, data) ∧ data.length = 48 ∧
      FirstProved cfg l (data.take 16) (data.drop 16) a ∧ s.session = some ses ∧
      HasKeys (keys h l (data.take 16) a) ses ∧
      (ses.seq = (keys h l (data.take 16) a).start + (observe env.int s.log).count ∨ 2 ^ 31 ≤ ses.seq)

/-- The session may be used for a request. -/
def Live (s : St σ) : Prop := s.handshakeDone = true ∧ ((observe env.int s.log).fresh = true ∨
  ∃ t d, (observe env.int s.log).now = some t ∧ (observe env.int s.log).deadline = some d ∧ t < d)

theorem needsHandshake_spec {asked : Bytes → Prop} {s s' : St σ} {r : Except Exc Bool}
    (hi : Inv c h env cfg asked s) (he : needsHandshake env s = (r, s')) :
    Inv c h env cfg asked s' ∧ ∃ b, r = .ok b ∧ (b = false → Live env s') := by
  unfold needsHandshake at he
  rw [bind_apply, get_apply] at he
  simp only at he
  split at he
  · cases he
    exact ⟨hi, true, rfl, by simp⟩
  · rename_i hd
    have hd : s.handshakeDone = true := by simpa using hd
    unfold sessionExpired at he
    rw [bind_apply, get_apply] at he
    simp only at he
    obtain ⟨hup, hdl, l, data, a, ses, h1, h2, h3, h4, h5, h6⟩ := hi.session hd
    cases hx : s.expireAt with
    | none =>
      rw [hx] at he
      cases he
      exact ⟨hi, true, rfl, by simp⟩
    | some d =>
      rw [hx] at he
      simp only at he
      rw [bind_apply] at he
      simp only [now, pure_apply, Prod.mk.injEq] at he
      obtain ⟨rfl, rfl⟩ := he
      have hobs : observe env.int (s.log ++ [.clock (env.now s.world).1]) =
          { observe env.int s.log with now := some (env.now s.world).1 } := by
        rw [observe_append]; simp [see, hup]
      refine ⟨⟨accepted_snoc c h env cfg hi.accepted (by intro n p ck out hc; cases hc), ?_⟩, _, rfl, ?_⟩
      · intro _
        simp only [hobs]
        exact ⟨hup, hdl, l, data, a, ses, h1, h2, h3, h4, h5, h6⟩
      · intro hb
        refine ⟨hd, Or.inr ?_⟩
        simp only [hobs]
        refine ⟨_, d, rfl, by rw [← hdl, hx], ?_⟩
        simp at hb
        omega

/-! ## The handshake -/

/-- The events of a completed handshake. -/
def handshakeLog (l data p2 data2 : Bytes) (cookie timeout : Option String) (t : Int) : List Ev :=
  [.post .handshake1 l none (.ok (200, data)), .cookie "TP_SESSIONID" cookie, .cookie "TIMEOUT" timeout, .clock t,
   .post .handshake2 p2 (if cookie = some "" then none else cookie) (.ok (200, data2))]

theorem performHandshake1_ok {s s' : St σ} {l r a : Bytes} (he : performHandshake1 env cfg s = (.ok (l, r, a), s')) :
    ∃ data w, data.length = 48 ∧ r = data.take 16 ∧ FirstProved cfg l (data.take 16) (data.drop 16) a ∧
      s' = { s with world := w, log := s.log ++ [.post .handshake1 l none (.ok (200, data))] } := by
  unfold performHandshake1 at he
  obtain ⟨l', s1, h1, h2⟩ := bind_eq_ok he
  obtain ⟨⟨status, data⟩, s2, h3, h4⟩ := bind_eq_ok h2
  simp only at h4
  split at h4
  · cases h4
  · rename_i hst
    have hst : status = 200 := by simpa using hst
    split at h4
    · cases h4
    · rename_i hlen
      have hlen : (data.drop 16).length = 32 := by simpa using hlen
      obtain ⟨a', s3, h5, h6⟩ := bind_eq_ok h4
      rw [lift_apply] at h5
      simp only [Prod.mk.injEq] at h5
      cases h6
      simp only [token, Prod.mk.injEq, Except.ok.injEq] at h1
      obtain ⟨h1, rfl⟩ := h1
      simp only [post, Prod.mk.injEq] at h3
      obtain ⟨h3, h7⟩ := h3
      refine ⟨data, s'.world, ?_, rfl, matchHash_ok cfg h5.1, ?_⟩
      · rw [List.length_drop] at hlen; omega
      · rw [← h5.2, ← h7, h3, hst]

/-- A handshake that succeeds. -/
theorem performHandshake_ok {s s' : St σ} (he : performHandshake h env cfg s = (.ok (), s')) :
    ∃ l data a data2 cookie timeout n t w, data.length = 48 ∧
      FirstProved cfg l (data.take 16) (data.drop 16) a ∧ timeoutOf env timeout = .ok n ∧
      s' = { handshakeDone := true, session := some (Session.new h l (data.take 16) a),
             expireAt := some (t + n - buffer), sessionCookie := if cookie = some "" then none else cookie,
             world := w,
             log := s.log ++ handshakeLog l data (cfg.variant.handshake2 l (data.take 16) a) data2 cookie timeout t } := by
  unfold performHandshake at he
  obtain ⟨_, s1, h1, he⟩ := bind_eq_ok he
  obtain ⟨⟨l, r, a⟩, s2, h2, he⟩ := bind_eq_ok he
  obtain ⟨cookie, s3, h3, he⟩ := bind_eq_ok he
  obtain ⟨_, s4, h4, he⟩ := bind_eq_ok he
  obtain ⟨timeout, s5, h5, he⟩ := bind_eq_ok he
  obtain ⟨n, s6, h6, he⟩ := bind_eq_ok he
  obtain ⟨t, s7, h7, he⟩ := bind_eq_ok he
  obtain ⟨_, s8, h8, he⟩ := bind_eq_ok he
  obtain ⟨ses, s9, h9, he⟩ := bind_eq_ok he
  rw [modify_apply] at h1 h4 h8 he
  rw [lift_apply] at h6
  cases h1
  obtain ⟨data, w, hlen, rfl, hfp, rfl⟩ := performHandshake1_ok env cfg h2
  simp only [getCookie, Prod.mk.injEq, Except.ok.injEq] at h3 h5
  obtain ⟨h3, rfl⟩ := h3
  cases h4
  obtain ⟨h5, rfl⟩ := h5
  simp only [Prod.mk.injEq] at h6
  obtain ⟨h6, rfl⟩ := h6
  simp only [now, Prod.mk.injEq, Except.ok.injEq] at h7
  obtain ⟨h7, rfl⟩ := h7
  cases h8
  unfold performHandshake2 at h9
  rw [bind_apply, get_apply] at h9
  simp only at h9
  obtain ⟨⟨status, data2⟩, s10, h10, h11⟩ := bind_eq_ok h9
  simp only at h11
  split at h11
  · cases h11
  · rename_i hst
    have hst : status = 200 := by simpa using hst
    cases h11
    simp only [post, Prod.mk.injEq] at h10
    obtain ⟨h10, rfl⟩ := h10
    simp only [Prod.mk.injEq, true_and] at he
    refine ⟨l, data, a, data2, cookie, timeout, n, t, s'.world, hlen, hfp, h6, ?_⟩
    rw [← he, h10, hst]
    simp only [h3, h5, h7, handshakeLog, List.append_assoc, List.cons_append, List.nil_append]

theorem observe_handshake (int : String → Option Int) (log : List Ev) (l data p2 data2 : Bytes)
    (cookie timeout : Option String) (t : Int) :
    ∃ n, (∀ env : Env σ, env.int = int → ∀ m, timeoutOf env timeout = .ok m → m = n) ∧
    observe int (log ++ handshakeLog l data p2 data2 cookie timeout t) =
      { up := true, seeds := some (l, data), timeout := n, deadline := some (t + n - 1200), count := 0,
        fresh := true, now := none } := by
  refine ⟨match timeout with
        | some v => if v = "" then 86400 else (int v).getD 0
        | none => 86400, ?_, ?_⟩
  · intro env henv m hm
    unfold timeoutOf at hm
    cases timeout with
    | none => cases hm; rfl
    | some v =>
      simp only at hm ⊢
      by_cases hv : v = ""
      · rw [if_pos hv] at hm ⊢; cases hm; rfl
      · rw [if_neg hv] at hm ⊢
        rw [henv] at hm
        cases hi : int v with
        | none => rw [hi] at hm; cases hm
        | some k => rw [hi] at hm; cases hm; rfl
  · simp only [observe, handshakeLog, List.foldl_append, List.foldl_cons, List.foldl_nil]
    simp only [see, if_true, String.reduceEq, if_false, Bool.false_eq_true]
    cases timeout <;> rfl

/-- What a handshake does to the log when it fails: no application request, and the session is not usable. -/
theorem performHandshake_error {s s' : St σ} {e : Exc} (he : performHandshake h env cfg s = (.error e, s')) :
    s'.handshakeDone = false ∧ ∃ evs, s'.log = s.log ++ evs ∧ ∀ ev ∈ evs, Ev.isRequest ev = false := by
  -- a relation that every step after the first keeps
  let R : St σ → St σ → Prop := fun a b => b.handshakeDone = a.handshakeDone ∧
    ∃ evs, b.log = a.log ++ evs ∧ ∀ ev ∈ evs, Ev.isRequest ev = false
  have hrefl : ∀ a, R a a := fun a => ⟨rfl, [], by simp, by simp⟩
  have htrans : ∀ a b d, R a b → R b d → R a d := by
    rintro a b d ⟨h1, ev1, h2, h3⟩ ⟨h4, ev2, h5, h6⟩
    refine ⟨h4.trans h1, ev1 ++ ev2, by rw [h5, h2, List.append_assoc], ?_⟩
    intro ev hev
    rcases List.mem_append.mp hev with hev | hev
    · exact h3 ev hev
    · exact h6 ev hev
  have hpost : ∀ url p ck, (∀ n, url ≠ .request n) → Rel R (post env url p ck) := by
    intro url p ck hurl a
    refine ⟨rfl, [_], rfl, ?_⟩
    intro ev hev
    simp only [List.mem_singleton] at hev
    subst hev
    cases url with
    | request n => exact absurd rfl (hurl n)
    | handshake1 => rfl
    | handshake2 => rfl
  have hcookie : ∀ n, Rel R (getCookie env n) := fun n a => ⟨rfl, [_], rfl, by simp [Ev.isRequest]⟩
  have hnow : Rel R (now env) := fun a => ⟨rfl, [_], rfl, by simp [Ev.isRequest]⟩
  have htoken : Rel R (token env) := fun a => ⟨rfl, [], by simp [token], by simp⟩
  have h1 : Rel R (performHandshake1 env cfg) := by
    unfold performHandshake1
    refine Rel.bind htrans htoken fun l => Rel.bind htrans (hpost _ _ _ (by simp)) fun r => ?_
    split
    · exact Rel.raise hrefl _
    · simp only
      split
      · exact Rel.raise hrefl _
      · exact Rel.bind htrans (Rel.lift hrefl _) fun _ => Rel.pure hrefl _
  have h2 : ∀ l r a, Rel R (performHandshake2 h env cfg l r a) := by
    intro l r a
    unfold performHandshake2
    refine Rel.bind htrans (Rel.get hrefl) fun s => Rel.bind htrans (hpost _ _ _ (by simp)) fun r => ?_
    split
    · exact Rel.raise hrefl _
    · exact Rel.pure hrefl _
  unfold performHandshake at he
  rw [bind_apply, modify_apply] at he
  simp only at he
  rcases bind_eq_error he with he | ⟨seeds, s2, hs2, he⟩
  · have := h1 { s with handshakeDone := false, expireAt := none, sessionCookie := none }
    rw [he] at this; exact this
  have hr2 := h1 { s with handshakeDone := false, expireAt := none, sessionCookie := none }
  rw [hs2] at hr2
  have hmod : ∀ f : St σ → St σ, (∀ a, (f a).handshakeDone = a.handshakeDone ∧ (f a).log = a.log) →
      Rel R (modifyS f) := by
    intro f hf a
    exact ⟨(hf a).1, [], by simp [(hf a).2], by simp⟩
  have hrest : ∀ (k : Session → PyM (St σ) Unit), Rel R (do
      let cookie ← getCookie env "TP_SESSIONID"
      modifyS fun s => { s with sessionCookie := if cookie = some "" then none else cookie }
      let value ← getCookie env "TIMEOUT"
      let timeout ← lift (timeoutOf env value)
      let t ← now env
      modifyS fun s => { s with expireAt := some (t + timeout - buffer) }
      performHandshake2 h env cfg seeds.1 seeds.2.1 seeds.2.2) := by
    intro _
    refine Rel.bind htrans (hcookie _) fun _ => Rel.bind htrans (hmod _ fun _ => ⟨rfl, rfl⟩) fun _ =>
      Rel.bind htrans (hcookie _) fun _ => Rel.bind htrans (Rel.lift hrefl _) fun _ => Rel.bind htrans hnow fun _ =>
      Rel.bind htrans (hmod _ fun _ => ⟨rfl, rfl⟩) fun _ => h2 _ _ _
  have hR := hrest (fun _ => pure ()) s2
  -- the same computation, with the error somewhere before the last assignment
  have key : (do
      let cookie ← getCookie env "TP_SESSIONID"
      modifyS fun s => { s with sessionCookie := if cookie = some "" then none else cookie }
      let value ← getCookie env "TIMEOUT"
      let timeout ← lift (timeoutOf env value)
      let t ← now env
      modifyS fun s => { s with expireAt := some (t + timeout - buffer) }
      performHandshake2 h env cfg seeds.1 seeds.2.1 seeds.2.2 : PyM (St σ) Session) s2 = (.error e, s') := by
    rw [bind_apply] at he ⊢
    simp only [getCookie] at he ⊢
    rw [bind_apply, modify_apply] at he ⊢
    simp only at he ⊢
    rw [bind_apply] at he ⊢
    simp only [getCookie] at he ⊢
    rcases bind_eq_error he with he | ⟨n, s6, h6, he⟩
    · exact bind_error he
    rw [bind_ok h6]
    rcases bind_eq_error he with he | ⟨t, s7, h7, he⟩
    · exact bind_error he
    rw [bind_ok h7]
    rw [bind_apply, modify_apply] at he ⊢
    simp only at he ⊢
    rcases bind_eq_error he with he | ⟨ses, s9, h9, he⟩
    · exact he
    · rw [modify_apply] at he; cases he
  rw [key] at hR
  exact htrans _ _ _ hr2 hR

theorem accepted_append {asked : Bytes → Prop} {log evs : List Ev} (ha : Accepted c h cfg asked env.int log)
    (he : ∀ ev ∈ evs, Ev.isRequest ev = false) : Accepted c h cfg asked env.int (log ++ evs) := by
  induction evs generalizing log with
  | nil => simpa using ha
  | cons ev evs ih =>
    have := ih (log := log ++ [ev]) (accepted_snoc c h env cfg ha (by
      intro n p ck out hev
      have := he ev (List.mem_cons_self ..)
      rw [hev] at this; cases this)) fun x hx => he x (List.mem_cons_of_mem _ hx)
    simpa using this

theorem ensureHandshake_spec {asked : Bytes → Prop} {s s' : St σ} {r : Except Exc Unit}
    (hi : Inv c h env cfg asked s) (he : ensureHandshake h env cfg s = (r, s')) :
    Inv c h env cfg asked s' ∧ (r = .ok () → Live env s') := by
  unfold ensureHandshake at he
  rw [bind_apply] at he
  cases hn : needsHandshake env s with
  | mk x s1 =>
    obtain ⟨hi1, b, rfl, hlive⟩ := needsHandshake_spec c h env cfg hi hn
    rw [hn] at he
    simp only at he
    cases b with
    | false =>
      simp only [Bool.false_eq_true, if_false] at he
      cases he
      exact ⟨hi1, fun _ => hlive rfl⟩
    | true =>
      simp only [if_true] at he
      cases r with
      | error e =>
        obtain ⟨h1, evs, h2, h3⟩ := performHandshake_error h env cfg he
        refine ⟨⟨?_, by rw [h1]; simp⟩, by simp⟩
        rw [h2]
        exact accepted_append c h env cfg hi1.accepted h3
      | ok u =>
        obtain ⟨l, data, a, data2, cookie, timeout, n, t, w, hlen, hfp, hto, rfl⟩ :=
          performHandshake_ok h env cfg he
        obtain ⟨n', hn', hobs⟩ := observe_handshake (σ := σ) env.int s1.log l data
          (cfg.variant.handshake2 l (data.take 16) a) data2 cookie timeout t
        have hnn := hn' env rfl n hto
        subst hnn
        refine ⟨⟨?_, ?_⟩, ?_⟩
        · refine accepted_append c h env cfg hi1.accepted ?_
          intro ev hev
          simp only [handshakeLog, List.mem_cons, List.not_mem_nil, or_false] at hev
          rcases hev with rfl | rfl | rfl | rfl | rfl <;> rfl
        · intro _
          simp only [hobs]
          obtain ⟨k1, k2, k3, k4⟩ := new_eq h l (data.take 16) a
          exact ⟨trivial, rfl, l, data, a, _, rfl, hlen, hfp, rfl, ⟨k1, k2, k3⟩, Or.inl (by rw [k4]; simp)⟩
        · intro _
          refine ⟨rfl, Or.inl ?_⟩
          simp only [hobs]

theorem post_apply (url : Url) (p : Bytes) (ck : Option String) (s : St σ) : post env url p ck s =
    ((env.post url p ck s.world).1,
      { s with world := (env.post url p ck s.world).2, log := s.log ++ [.post url p ck (env.post url p ck s.world).1] }) :=
  rfl

theorem sendRequest_spec {asked : Bytes → Prop} {s : St σ} (request : Bytes) (hreq : asked request)
    (hi : Inv c h env cfg asked s) (hl : Live env s) :
    Inv c h env cfg asked (sendRequest c h env decode json request s).2 := by
  obtain ⟨hdone, hlive⟩ := hl
  obtain ⟨hup, hdl, l, data, a, ses, h1, h2, h3, h4, h5, h6⟩ := hi.session hdone
  unfold sendRequest
  rw [bind_apply]
  have henc : encryptRequest c h request s =
      ((ses.encrypt c h request).1, { s with session := some (ses.encrypt c h request).2 }) := by
    unfold encryptRequest; rw [h4]
  rw [henc]
  cases hx : ses.encrypt c h request with
  | mk x ses' =>
  cases x with
  | error e =>
    obtain ⟨_, hs, hk, hp⟩ := encrypt_fails c h h5 hx
    refine ⟨hi.accepted, fun _ => ⟨hup, hdl, l, data, a, ses', h1, h2, h3, rfl, hk, Or.inr ?_⟩⟩
    have hr := keys_start_range h l (data.take 16) a
    unfold Crypto.packI32 at hp
    split at hp
    · cases hp
    · rename_i hnot
      rw [hs]
      omega
  | ok pn =>
    obtain ⟨p, n⟩ := pn
    obtain ⟨hn, hs, hk, hread, packed, hpack, hciph⟩ := encrypt_reads c h (keys_iv_length h l _ a) h5 hx
    have hseq : n = (keys h l (data.take 16) a).start + (observe env.int s.log).count + 1 := by
      rcases h6 with h6 | h6
      · rw [hn, h6]
      · exfalso
        unfold Crypto.packI32 at hpack
        split at hpack
        · omega
        · cases hpack
    simp only
    rw [bind_apply, get_apply]
    simp only
    rw [bind_apply]
    -- the state right after the post
    generalize hpost : env.post (.request n) p s.sessionCookie s.world = out
    obtain ⟨outcome, w⟩ := out
    rw [post_apply, hpost]
    have hacc : Accepted c h cfg asked env.int (s.log ++ [.post (.request n) p s.sessionCookie outcome]) := by
      refine accepted_snoc c h env cfg hi.accepted ?_
      intro n' p' ck out heq
      cases heq
      exact ⟨hup, hlive, l, data, a, request, hreq, h1, h2, h3, hseq, hread⟩
    have hobs : (∀ d, outcome ≠ .ok (403, d)) →
        observe env.int (s.log ++ [.post (.request n) p s.sessionCookie outcome]) =
        { observe env.int s.log with count := (observe env.int s.log).count + 1, fresh := false, now := none } := by
      intro h403
      rw [observe_append]
      cases outcome with
      | error e => simp [see]
      | ok sd =>
        obtain ⟨status, d⟩ := sd
        have : status ≠ 403 := by intro he; exact h403 d (by rw [he])
        simp only [see]
    have hinv : (∀ d, outcome ≠ .ok (403, d)) → Inv c h env cfg asked { s with
        session := some ses', world := w, log := s.log ++ [.post (.request n) p s.sessionCookie outcome] } := by
      intro h403
      refine ⟨hacc, fun _ => ?_⟩
      simp only [hobs h403]
      refine ⟨hup, hdl, l, data, a, ses', h1, h2, h3, rfl, hk, Or.inl ?_⟩
      rw [hs, ← hn, hseq]
      omega
    cases outcome with
    | error e => exact hinv (by simp)
    | ok sd =>
      obtain ⟨status, d⟩ := sd
      simp only
      by_cases h403 : status = 403
      · subst h403
        simp only [if_true]
        rw [bind_apply, modify_apply]
        exact ⟨hacc, by simp⟩
      · rw [if_neg h403]
        have hinv' := hinv (by intro d' he; cases he; exact h403 rfl)
        split
        · exact hinv'
        · rw [bind_apply, get_apply]
          simp only [lift_apply]
          exact hinv'

theorem send_inv {asked : Bytes → Prop} {s : St σ} (request : Bytes) (hreq : asked request)
    (hi : Inv c h env cfg asked s) : Inv c h env cfg asked (send c h env cfg decode json request s).2 := by
  unfold send
  rw [bind_apply]
  cases he : ensureHandshake h env cfg s with
  | mk r s1 =>
    obtain ⟨h1, h2⟩ := ensureHandshake_spec c h env cfg hi he
    cases r with
    | error e => exact h1
    | ok u => exact sendRequest_spec c h env cfg decode json request hreq h1 (h2 rfl)

theorem reset_inv {asked : Bytes → Prop} {s : St σ} (hi : Inv c h env cfg asked s) :
    Inv c h env cfg asked (reset s).2 := by
  refine ⟨accepted_snoc c h env cfg hi.accepted (by intro n p ck out he; cases he), ?_⟩
  simp [reset]

end Kasa.Klap
