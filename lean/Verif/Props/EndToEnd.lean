import Verif.Props.JsonText
import Verif.Props.Klap
import Verif.Spec.EndToEnd
import Verif.Lemmas.SmartCompose
/-!
# C75: over an unreliable network requests are carried out at most once, and answered ones exactly once
-/

namespace Kasa.EndToEnd
open PyM KlapSpec Klap

section
variable {α : Type} (c : BlockCipher) (h : Hashes) (d : Device) (stored : Bytes) (lib lib' : JsonText.Lib) (p : Program α)
variable (x : Chance) (cfg : Config)

/-- What holds of transport and device between two requests. -/
def Good (s : St (World α)) : Prop :=
  s.handshakeDone = true → ∃ ses l r, s.session = some ses ∧ HasKeys (keys h l r stored) ses ∧
    (s.world.session = none ∨ s.world.session = some (keys h l r stored) ∧ s.world.last ≤ ses.seq)

/-- An exchange of a handshake does not touch the program. -/
theorem exchange_state (url : Url) (hu : ∀ n, url ≠ .request n) (payload : Bytes) (w : World α) :
    (exchange c h d stored lib p x url payload w).2.state = w.state := by
  have hh : ∀ w : World α, (handle c h d stored lib p x url payload w).2.state = w.state := by
    intro w
    cases url with
    | handshake1 => rfl
    | handshake2 =>
      unfold handle
      simp only
      split
      · split <;> rfl
      · rfl
    | request n => exact absurd rfl (hu n)
  unfold exchange
  simp only
  split <;> (simp only [hh]; split <;> rfl)

theorem state_rel : ∀ (s : St (World α)), (performHandshake h (network c h d stored lib p x) cfg s).2.world.state = s.world.state := by
  let R : St (World α) → St (World α) → Prop := fun a b => b.world.state = a.world.state
  have hrefl : ∀ a, R a a := fun a => rfl
  have htrans : ∀ a b d, R a b → R b d → R a d := fun _ _ _ h1 h2 => Eq.trans h2 h1
  have hpost : ∀ url q ck, (∀ n, url ≠ .request n) → Rel R (post (network c h d stored lib p x) url q ck) := by
    intro url q ck hurl a
    exact exchange_state c h d stored lib p x url hurl q a.world
  have hmod : ∀ f : St (World α) → St (World α), (∀ a, (f a).world = a.world) → Rel R (modifyS f) := by
    intro f hf a
    show (f a).world.state = _
    rw [hf]
  have hcookie : ∀ n, Rel R (getCookie (network c h d stored lib p x) n) := fun n a => rfl
  have hnow : Rel R (now (network c h d stored lib p x)) := fun a => rfl
  have htoken : Rel R (token (network c h d stored lib p x)) := fun a => rfl
  have h1 : Rel R (performHandshake1 (network c h d stored lib p x) cfg) := by
    unfold performHandshake1
    refine Rel.bind htrans htoken fun l => Rel.bind htrans (hpost _ _ _ (by simp)) fun r => ?_
    split
    · exact Rel.raise hrefl _
    · simp only
      split
      · exact Rel.raise hrefl _
      · exact Rel.bind htrans (Rel.lift hrefl _) fun _ => Rel.pure hrefl _
  have h2 : ∀ l r a, Rel R (performHandshake2 h (network c h d stored lib p x) cfg l r a) := by
    intro l r a
    unfold performHandshake2
    refine Rel.bind htrans (Rel.get hrefl) fun s => Rel.bind htrans (hpost _ _ _ (by simp)) fun r => ?_
    split
    · exact Rel.raise hrefl _
    · exact Rel.pure hrefl _
  have : Rel R (performHandshake h (network c h d stored lib p x) cfg) := by
    unfold performHandshake
    exact Rel.bind htrans (hmod _ fun _ => rfl) fun _ => Rel.bind htrans h1 fun _ => Rel.bind htrans (hcookie _) fun _ =>
      Rel.bind htrans (hmod _ fun _ => rfl) fun _ => Rel.bind htrans (hcookie _) fun _ => Rel.bind htrans (Rel.lift hrefl _) fun _ =>
      Rel.bind htrans hnow fun _ => Rel.bind htrans (hmod _ fun _ => rfl) fun _ => Rel.bind htrans (h2 _ _ _) fun _ =>
      hmod _ fun _ => rfl
  exact this

/-- An answer with status 200 comes from the device. -/
theorem exchange_ok (hx : x.Fair) {url : Url} {payload b : Bytes} {w w' : World α}
    (he : exchange c h d stored lib p x url payload w = (.ok (200, b), w')) :
    ∃ w1 : World α, (w1 = w ∨ w1 = { w with session := none, seeds := none }) ∧
      (handle c h d stored lib p x url payload w1).1 = (200, b) ∧
      w' = { (handle c h d stored lib p x url payload w1).2 with count := w.count + 1 } := by
  unfold exchange at he
  simp only at he
  have hc : (if x.restart w.count = true then { w with session := none, seeds := none } else w).count = w.count := by
    split <;> rfl
  have hw : (if x.restart w.count = true then { w with session := none, seeds := none } else w) = w ∨
      (if x.restart w.count = true then { w with session := none, seeds := none } else w) = { w with session := none, seeds := none } := by
    split
    · exact .inr rfl
    · exact .inl rfl
  revert he hc hw
  generalize (if x.restart w.count = true then { w with session := none, seeds := none } else w) = w1
  intro he hc hw
  rw [hc] at he
  have hf := hx.fate w.count
  split at he
  · simp only [Prod.mk.injEq, Except.ok.injEq] at he
    exact ⟨w1, hw, he.1, he.2.symm⟩
  · next heq =>
    rw [heq] at hf
    simp only [Prod.mk.injEq] at he
    exact absurd he.1 (hf b)
  · next heq =>
    rw [heq] at hf
    simp only [Prod.mk.injEq] at he
    exact absurd he.1 (hf b)

/-- A handshake that succeeds leaves both sides with the same keys. -/
theorem handshake_good (hx : x.Fair) (hm : Matches cfg d stored) {s s' : St (World α)}
    (he : performHandshake h (network c h d stored lib p x) cfg s = (.ok (), s')) :
    s'.handshakeDone = true ∧ ∃ ses l r, s'.session = some ses ∧ HasKeys (keys h l r stored) ses ∧
      s'.world.session = some (keys h l r stored) ∧ s'.world.last = ses.seq ∧ ses.seq = (keys h l r stored).start := by
  unfold performHandshake at he
  rw [bind_apply, modify_apply] at he
  simp only at he
  obtain ⟨⟨l, r, a⟩, s2, h2, he⟩ := bind_eq_ok he
  -- handshake1
  have hseeds : a = stored ∧ s2.world.seeds = some (l, r) := by
    unfold performHandshake1 at h2
    obtain ⟨l', s1, h1, h2⟩ := bind_eq_ok h2
    obtain ⟨⟨status, data⟩, s3, h3, h4⟩ := bind_eq_ok h2
    simp only at h4
    split at h4
    · cases h4
    · next hst =>
      have hst : status = 200 := Decidable.of_not_not hst
      subst hst
      rw [post_apply] at h3
      simp only [Prod.mk.injEq] at h3
      obtain ⟨w1, -, hr1, hr2⟩ := exchange_ok c h d stored lib p x hx (w' := s3.world) (b := data) (url := .handshake1)
        (payload := l') (w := s1.world) (Prod.ext h3.1 (by rw [← h3.2]; rfl))
      simp only [handle, Prod.mk.injEq, true_and] at hr1 hr2
      have hlen := hx.seed w1.count
      rw [← hr1, List.take_left' hlen, List.drop_left' hlen] at h4
      split at h4
      · cases h4
      · have hmatch : matchHash cfg l' (x.remoteSeed w1.count) (d.proof l' (x.remoteSeed w1.count) stored) = .ok stored := by
          unfold matchHash
          rw [hm.hash, hm.proof, if_pos rfl]
        rw [hmatch] at h4
        simp only [bind_apply, lift_apply] at h4
        cases h4
        rw [hr2]
        exact ⟨rfl, rfl⟩
  obtain ⟨rfl, hseeds⟩ := hseeds
  obtain ⟨ck, s3, h3, he⟩ := bind_eq_ok he
  rw [bind_apply, modify_apply] at he
  simp only at he
  obtain ⟨v, s4, h4, he⟩ := bind_eq_ok he
  obtain ⟨n, s5, h5, he⟩ := bind_eq_ok he
  obtain ⟨t, s6, h6, he⟩ := bind_eq_ok he
  rw [bind_apply, modify_apply] at he
  simp only at he
  obtain ⟨ses, s7, h7, he⟩ := bind_eq_ok he
  have hs6 : s6.world.seeds = some (l, r) := by
    cases h3
    cases h4
    rw [lift_apply] at h5
    simp only [Prod.mk.injEq] at h5
    obtain ⟨-, rfl⟩ := h5
    cases h6
    exact hseeds
  unfold performHandshake2 at h7
  rw [bind_apply, get_apply] at h7
  simp only at h7
  obtain ⟨⟨status, data⟩, s8, h8, h7⟩ := bind_eq_ok h7
  simp only at h7
  split at h7
  · cases h7
  · next hst =>
    have hst : status = 200 := Decidable.of_not_not hst
    subst hst
    rw [post_apply] at h8
    simp only [Prod.mk.injEq] at h8
    obtain ⟨w1, hw1, hr1, hr2⟩ := exchange_ok c h d a lib p x hx (w' := s8.world) (b := data) (url := .handshake2)
      (payload := cfg.variant.handshake2 l r a) (w := s6.world) (Prod.ext h8.1 (by rw [← h8.2]; rfl))
    simp only [pure_apply, Prod.mk.injEq, Except.ok.injEq] at h7
    obtain ⟨rfl, rfl⟩ := h7
    rw [modify_apply] at he
    simp only [Prod.mk.injEq, true_and] at he
    subst he
    refine ⟨rfl, Session.new h l r a, l, r, rfl, ?_⟩
    obtain ⟨k1, k2, k3, k4⟩ := new_eq h l r a
    refine ⟨⟨k1, k2, k3⟩, ?_⟩
    have hw : w1.seeds = some (l, r) ∨ w1.seeds = none := by
      rcases hw1 with rfl | rfl
      · exact .inl hs6
      · exact .inr rfl
    rw [k4]
    rcases hw with hw | hw
    · simp only [handle, hw] at hr1 hr2
      rw [hm.expects] at hr1 hr2
      simp only [if_true] at hr2
      show s8.world.session = _ ∧ s8.world.last = _ ∧ _
      rw [hr2]
      exact ⟨rfl, rfl, rfl⟩
    · simp only [handle, hw] at hr1
      cases hr1

/-- What an exchange can come to. -/
theorem exchange_cases (hx : x.Fair) (url : Url) (payload : Bytes) (w : World α) :
    ∃ w1 : World α, (w1 = w ∨ w1 = { w with session := none, seeds := none }) ∧
      (((∀ b, (exchange c h d stored lib p x url payload w).1 ≠ .ok (200, b)) ∧
          (exchange c h d stored lib p x url payload w).2 = { w1 with count := w.count + 1 }) ∨
        (((exchange c h d stored lib p x url payload w).1 = .ok (handle c h d stored lib p x url payload w1).1 ∨
            ∀ b, (exchange c h d stored lib p x url payload w).1 ≠ .ok (200, b)) ∧
          (exchange c h d stored lib p x url payload w).2 =
            { (handle c h d stored lib p x url payload w1).2 with count := w.count + 1 })) := by
  unfold exchange
  simp only
  have hc : (if x.restart w.count = true then { w with session := none, seeds := none } else w).count = w.count := by
    split <;> rfl
  have hw : (if x.restart w.count = true then { w with session := none, seeds := none } else w) = w ∨
      (if x.restart w.count = true then { w with session := none, seeds := none } else w) = { w with session := none, seeds := none } := by
    split
    · exact .inr rfl
    · exact .inl rfl
  revert hc hw
  generalize (if x.restart w.count = true then { w with session := none, seeds := none } else w) = w1
  intro hc hw
  rw [hc]
  have hf := hx.fate w.count
  refine ⟨w1, hw, ?_⟩
  split
  · exact .inr ⟨.inl rfl, rfl⟩
  · next heq => rw [heq] at hf; exact .inl ⟨hf, rfl⟩
  · next heq => rw [heq] at hf; exact .inr ⟨.inr hf, rfl⟩

/-- What the device does with a request that was encrypted for it. -/
theorem handle_request {k : Keys} {w : World α} {n : Int} {payload : Bytes} {j : Json} (hs : w.session = some k) (hn : w.last < n)
    (hr : deviceReads c h k n payload = some (utf8 (JsonText.dumps lib' j))) (hj : JsonText.Proper j) {packed : Bytes}
    (hp : Crypto.packI32 n = some packed) :
    ∃ body, sealed c h k n (utf8 (JsonText.dumps lib (p.run j w.state).1)) = some body ∧
      handle c h d stored lib p x (.request n) payload w = ((200, body), { w with last := n, state := (p.run j w.state).2 }) := by
  have hb : ∃ body, sealed c h k n (utf8 (JsonText.dumps lib (p.run j w.state).1)) = some body := by
    unfold sealed deviceAnswers
    rw [hp]
    exact ⟨_, rfl⟩
  obtain ⟨body, hb⟩ := hb
  refine ⟨body, hb, ?_⟩
  unfold handle
  simp only [hs]
  rw [if_neg (by omega), hr]
  simp only [Option.bind_some, fromUtf8_utf8, JsonText.C70_round_trip lib' j hj, hb]

/-- What the client makes of what came back. -/
def receive (r : Int × Bytes) : PyM (St (World α)) Json :=
  if r.1 = 403 then do
    modifyS fun s => { s with handshakeDone := false }
    raise (.retryable none)
  else if r.1 ≠ 200 then raise .kasa
  else do
    let s ← getS
    lift (openResponse c fromUtf8 JsonText.loads s.session r.2)

theorem sendRequest_eq (env : Env (World α)) (request : Bytes) : sendRequest c h env fromUtf8 JsonText.loads request =
    encryptRequest c h request >>= fun p => getS >>= fun s => post env (.request p.2) p.1 s.sessionCookie >>= fun r => receive c r := rfl

/-- An outcome that is no answer. -/
theorem receive_failed {l r : Bytes} {s : St (World α)} {ses : Session} (hs : s.session = some ses) (hk : HasKeys (keys h l r stored) ses)
    (hw : s.world.session = none ∨ s.world.session = some (keys h l r stored) ∧ s.world.last ≤ ses.seq)
    {o : Except Exc (Int × Bytes)} (ho : ∀ b, o ≠ .ok (200, b)) :
    ∃ e s', ((lift o : PyM (St (World α)) (Int × Bytes)) >>= fun r => receive c r) s = (.error e, s') ∧ Good h stored s' ∧ s'.world = s.world := by
  cases o with
  | error e => exact ⟨e, s, by simp only [bind_apply, lift_apply], fun _ => ⟨ses, l, r, hs, hk, hw⟩, rfl⟩
  | ok sb =>
    obtain ⟨status, b⟩ := sb
    simp only [bind_apply, lift_apply, receive]
    by_cases h403 : status = 403
    · rw [if_pos h403]
      exact ⟨_, _, rfl, fun h => by simp at h, rfl⟩
    · rw [if_neg h403, if_pos (fun h => ho b (by rw [h]))]
      exact ⟨_, _, rfl, fun _ => ⟨ses, l, r, hs, hk, hw⟩, rfl⟩

/-- Everything after the handshake. -/
theorem sendRequest_step (hx : x.Fair) (hp : ∀ j a, JsonText.Proper (p.run j a).1) (j : Json) (hj : JsonText.Proper j)
    (s : St (World α)) (hg : Good h stored s) (hd : s.handshakeDone = true) :
    ∃ res s', sendRequest c h (network c h d stored lib' p x) fromUtf8 JsonText.loads (utf8 (JsonText.dumps lib j)) s = (res, s') ∧
      Good h stored s' ∧ ((∃ e, res = .error e ∧ s'.world.state = s.world.state) ∨
        (∃ e, res = .error e ∧ s'.world.state = (p.run j s.world.state).2) ∨
        (res = .ok (p.run j s.world.state).1 ∧ s'.world.state = (p.run j s.world.state).2)) := by
  obtain ⟨ses, l, r, hses, hk, hw⟩ := hg hd
  have hiv := keys_iv_length h l r stored
  rw [sendRequest_eq, bind_apply]
  have henc : encryptRequest c h (utf8 (JsonText.dumps lib j)) s =
      ((ses.encrypt c h (utf8 (JsonText.dumps lib j))).1, { s with session := some (ses.encrypt c h (utf8 (JsonText.dumps lib j))).2 }) := by
    simp only [encryptRequest, hses]
  rw [henc]
  cases hE : ses.encrypt c h (utf8 (JsonText.dumps lib j)) with
  | mk o ses' =>
  cases o with
  | error e =>
    obtain ⟨-, hseq, hk', -⟩ := encrypt_fails c h hk hE
    refine ⟨_, _, rfl, fun _ => ⟨ses', l, r, rfl, hk', ?_⟩, .inl ⟨e, rfl, rfl⟩⟩
    rcases hw with hw | ⟨hw, hl⟩
    · exact .inl hw
    · exact .inr ⟨hw, by show s.world.last ≤ _; omega⟩
  | ok pn =>
    obtain ⟨pl, n⟩ := pn
    obtain ⟨hn, hseq, hk', hreads, packed, hpack, hcipher⟩ := encrypt_reads c h hiv hk hE
    simp only
    rw [bind_ok (get_apply _)]
    obtain ⟨w1, hw1, hcase⟩ := exchange_cases c h d stored lib' p x hx (.request n) pl s.world
    have hstate : w1.state = s.world.state := by rcases hw1 with rfl | rfl <;> rfl
    have hgw : w1.session = none ∨ w1.session = some (keys h l r stored) ∧ w1.last ≤ ses.seq := by
      rcases hw1 with rfl | rfl
      · exact hw
      · exact .inl rfl
    generalize hX : exchange c h d stored lib' p x (.request n) pl s.world = X at hcase
    obtain ⟨o, w'⟩ := X
    simp only at hcase
    have hev : (post (network c h d stored lib' p x) (.request n) pl s.sessionCookie >>= fun r => receive c r)
        { s with session := some ses' } = ((lift o : PyM (St (World α)) (Int × Bytes)) >>= fun r => receive c r)
          { s with session := some ses', world := w', log := s.log ++ [.post (.request n) pl s.sessionCookie o] } := by
      rw [bind_apply, bind_apply, post_apply, lift_apply]
      have : (network c h d stored lib' p x).post (.request n) pl s.sessionCookie s.world = (o, w') := hX
      simp only [this]
    simp only
    rw [hev]
    clear hev hX
    rcases hcase with ⟨ho, rfl⟩ | ⟨ho, rfl⟩
    · obtain ⟨e, s', g1, g2, g3⟩ := receive_failed c h stored (s := { s with session := some ses', world := { w1 with count := s.world.count + 1 }, log := s.log ++ [.post (.request n) pl s.sessionCookie o] })
        rfl hk'
        (by rcases hgw with h1 | ⟨h1, h2⟩
            · exact .inl h1
            · exact .inr ⟨h1, by show w1.last ≤ _; omega⟩) ho
      exact ⟨_, _, g1, g2, .inl ⟨e, rfl, by rw [g3]; exact hstate⟩⟩
    · rcases hgw with hnone | ⟨hsome, hlast⟩
      · have hh : handle c h d stored lib' p x (.request n) pl w1 = ((403, []), w1) := by
          unfold handle; simp only [hnone]
        rw [hh] at ho ⊢
        obtain ⟨e, s', g1, g2, g3⟩ := receive_failed c h stored (s := { s with session := some ses', world := { w1 with count := s.world.count + 1 }, log := s.log ++ [.post (.request n) pl s.sessionCookie o] })
          rfl hk' (.inl hnone)
          (o := o) (by rcases ho with rfl | ho
                       · intro b hb; cases hb
                       · exact ho)
        exact ⟨_, _, g1, g2, .inl ⟨e, rfl, by rw [g3]; exact hstate⟩⟩
      · obtain ⟨body, hbody, hh⟩ := handle_request c h d stored lib' lib p x (w := w1) hsome (by omega) hreads hj hpack
        rw [hh] at ho ⊢
        rcases ho with rfl | ho
        · refine ⟨.ok (p.run j s.world.state).1, _, Prod.ext ?_ rfl, ?_, .inr (.inr ⟨rfl, ?_⟩)⟩
          · simp only [bind_apply, lift_apply, receive]
            rw [if_neg (by decide), if_neg (by decide)]
            simp only [bind_apply, get_apply, lift_apply]
            unfold openResponse
            have hans : deviceAnswers c (keys h l r stored) n
                (h.sha256 ((keys h l r stored).sig ++ packed ++ Crypto.encrypt c (keys h l r stored).key ((keys h l r stored).iv ++ packed)
                  (utf8 (JsonText.dumps lib' (p.run j w1.state).1)))) (utf8 (JsonText.dumps lib' (p.run j w1.state).1)) = some body := by
              unfold sealed at hbody
              rw [hpack] at hbody
              exact hbody
            have := C11_reply c h l r stored ses ses' hk _ pl n hE _ _ body (h.sha256_length _) hans
            simp only [this, fromUtf8_utf8, hstate, JsonText.C70_round_trip lib' _ (hp j s.world.state)]
          · simp only [bind_apply, lift_apply, receive]
            rw [if_neg (by decide), if_neg (by decide)]
            simp only [bind_apply, get_apply, lift_apply]
            exact fun _ => ⟨ses', l, r, rfl, hk', .inr ⟨hsome, by show n ≤ _; omega⟩⟩
          · simp only [bind_apply, lift_apply, receive]
            rw [if_neg (by decide), if_neg (by decide)]
            simp only [bind_apply, get_apply, lift_apply, hstate]
        · obtain ⟨e, s', g1, g2, g3⟩ := receive_failed c h stored (s := { s with session := some ses', world := { w1 with last := n, state := (p.run j w1.state).2, count := s.world.count + 1 }, log := s.log ++ [.post (.request n) pl s.sessionCookie o] })
            rfl hk' (.inr ⟨hsome, by show n ≤ _; omega⟩) ho
          refine ⟨_, _, g1, g2, .inr (.inl ⟨e, rfl, ?_⟩)⟩
          rw [g3]
          show (p.run j w1.state).2 = _
          rw [hstate]

/-- **C75, one request.** -/
theorem send_step (hx : x.Fair) (hm : Matches cfg d stored) (hp : ∀ j a, JsonText.Proper (p.run j a).1) (j : Json)
    (hj : JsonText.Proper j) (s : St (World α)) (hg : Good h stored s) :
    ∃ res s', Klap.send c h (network c h d stored lib' p x) cfg fromUtf8 JsonText.loads (utf8 (JsonText.dumps lib j)) s = (res, s') ∧
      Good h stored s' ∧ ((∃ e, res = .error e ∧ s'.world.state = s.world.state) ∨
        (∃ e, res = .error e ∧ s'.world.state = (p.run j s.world.state).2) ∨
        (res = .ok (p.run j s.world.state).1 ∧ s'.world.state = (p.run j s.world.state).2)) := by
  -- the handshake
  have hens : ∃ r s1, ensureHandshake h (network c h d stored lib' p x) cfg s = (r, s1) ∧ s1.world.state = s.world.state ∧
      Good h stored s1 ∧ (r = .ok () → s1.handshakeDone = true) := by
    have hshake : ∀ s0 : St (World α), ∃ r s1, performHandshake h (network c h d stored lib' p x) cfg s0 = (r, s1) ∧
        s1.world.state = s0.world.state ∧ Good h stored s1 ∧ (r = .ok () → s1.handshakeDone = true) := by
      intro s0
      cases hH : performHandshake h (network c h d stored lib' p x) cfg s0 with
      | mk r s1 =>
      have hst := state_rel c h d stored lib' p x cfg s0
      rw [hH] at hst
      refine ⟨r, s1, rfl, hst, ?_⟩
      cases r with
      | ok u =>
        obtain ⟨g1, ses, l, r, g2, g3, g4, g5, -⟩ := handshake_good c h d stored lib' p x cfg hx hm hH
        exact ⟨fun _ => ⟨ses, l, r, g2, g3, .inr ⟨g4, by omega⟩⟩, fun _ => g1⟩
      | error e =>
        have := (performHandshake_error h _ cfg hH).1
        exact ⟨fun h => absurd (this.symm.trans h) (by simp), fun h => nomatch h⟩
    unfold ensureHandshake needsHandshake sessionExpired
    simp only [bind_apply, get_apply]
    by_cases hdone : s.handshakeDone = false
    · rw [if_pos hdone]
      simp only [pure_apply, if_true]
      exact hshake s
    · rw [if_neg hdone]
      simp only [bind_apply, get_apply]
      cases s.expireAt with
      | none =>
        simp only [pure_apply, if_true]
        exact hshake s
      | some t =>
        simp only [bind_apply, now, network, pure_apply]
        split
        · obtain ⟨r, s1, e1, e2, e3⟩ := hshake { s with world := { s.world with count := s.world.count + 1 }, log := s.log ++ [.clock (x.clock s.world.count)] }
          exact ⟨r, s1, e1, e2, e3⟩
        · exact ⟨_, _, rfl, rfl, hg, fun _ => by simpa using hdone⟩
  obtain ⟨r, s1, h1, h2, h3, h4⟩ := hens
  unfold Klap.send
  rw [bind_apply, h1]
  cases r with
  | error e => exact ⟨_, _, rfl, h3, .inl ⟨e, rfl, h2⟩⟩
  | ok u =>
    have := sendRequest_step c h d stored lib lib' p x hx hp j hj s1 h3 (h4 rfl)
    rw [h2] at this
    exact this

/-- **C75, over time.** Requests sent one after the other over a KLAP transport, with resets anywhere in between, whatever
happens on the network, to the device's session, to clock and cookies: answered requests were carried out exactly once, with
the answer of the device; failed ones at most once. -/
theorem C75_klap_once (hx : x.Fair) (hm : Matches cfg d stored) (hp : ∀ j a, JsonText.Proper (p.run j a).1) (w : World α)
    (ops : List Op) (hops : ∀ j, .send j ∈ ops → JsonText.Proper j) :
    Once p w.state (history c h (network c h d stored lib' p x) cfg lib ops { world := w }).1
      (history c h (network c h d stored lib' p x) cfg lib ops { world := w }).2.world.state := by
  have key : ∀ (ops : List Op) (s : St (World α)), Good h stored s → (∀ j, .send j ∈ ops → JsonText.Proper j) →
      Once p s.world.state (history c h (network c h d stored lib' p x) cfg lib ops s).1
        (history c h (network c h d stored lib' p x) cfg lib ops s).2.world.state := by
    intro ops
    induction ops with
    | nil => intro s _ _; exact .nil _
    | cons op ops ih =>
      intro s hg hops
      cases op with
      | reset => exact ih (reset s).2 (fun h => by cases h) fun j hj => hops j (.tail _ hj)
      | send j =>
        obtain ⟨res, s', h1, h2, h3⟩ := send_step c h d stored lib lib' p x cfg hx hm hp j (hops j (.head _)) s hg
        have := ih s' h2 fun j hj => hops j (.tail _ hj)
        simp only [history, h1]
        rcases h3 with ⟨e, rfl, he⟩ | ⟨e, rfl, he⟩ | ⟨rfl, he⟩
        · rw [he] at this; exact .failed this
        · rw [he] at this; exact .unanswered this
        · rw [he] at this; exact .answered this
  exact key ops { world := w } (fun h => by cases h) hops

end

/-! ## SMART queries -/

theorem Once.append {α : Type} {p : Program α} {a b c : α} {l m : List (Json × Except Exc Json)} (h1 : Once p a l b)
    (h2 : Once p b m c) : Once p a (l ++ m) c := by
  induction h1 with
  | nil a => exact h2
  | answered _ ih => exact .answered (ih h2)
  | unanswered _ ih => exact .unanswered (ih h2)
  | failed _ ih => exact .failed (ih h2)

theorem Sent.append {uuid : String} {ws ws' : List Smart.Wire} {js js' : List Json} (h1 : Sent uuid ws js) (h2 : Sent uuid ws' js') :
    Sent uuid (ws ++ ws') (js ++ js') := by
  induction h1 with
  | nil => exact h2
  | cons t _ ih => exact .cons t ih

theorem properKvs_params {r : Smart.Request} (h : ∀ q, r.params = some q → JsonText.Proper q) :
    JsonText.ProperKvs (SmartText.paramsField r) := by
  unfold SmartText.paramsField
  cases hq : r.params with
  | none => simp [JsonText.ProperKvs]
  | some q => simp [JsonText.ProperKvs, h q hq]

theorem proper_smartRequest (uuid : String) (t : Int) {r : Smart.Request} (h : ∀ q, r.params = some q → JsonText.Proper q) :
    JsonText.Proper (SmartText.smartRequest uuid t r) := by
  unfold SmartText.smartRequest SmartText.paramsField
  cases hq : r.params with
  | none => simp [JsonText.Proper, JsonText.ProperKvs, Dict.WF, Dict.keys]
  | some q => simp [JsonText.Proper, JsonText.ProperKvs, Dict.WF, Dict.keys, h q hq]

theorem proper_batchItem {r : Smart.Request} (h : ∀ q, r.params = some q → JsonText.Proper q) :
    JsonText.Proper (SmartText.batchItem r) := by
  unfold SmartText.batchItem SmartText.paramsField
  cases hq : r.params with
  | none => simp [JsonText.Proper, JsonText.ProperKvs, Dict.WF, Dict.keys]
  | some q => simp [JsonText.Proper, JsonText.ProperKvs, Dict.WF, Dict.keys, h q hq]

/-- The texts of messages are proper JSON. -/
theorem proper_wire (uuid : String) (t : Int) (w : Smart.Wire) (h : Smart.WireAll JsonText.Proper w) :
    JsonText.Proper (SmartText.wireJson uuid t w) := by
  cases w with
  | single r => exact proper_smartRequest uuid t h
  | multi rs =>
    refine proper_smartRequest uuid t fun q hq => ?_
    cases hq
    have : JsonText.ProperList (rs.map SmartText.batchItem) := by
      induction rs with
      | nil => simp [JsonText.ProperList]
      | cons r rs ih =>
        rw [List.map_cons, JsonText.ProperList]
        exact ⟨proper_batchItem (h r (.head _)), ih fun r hr => h r (.tail _ hr)⟩
    simp [JsonText.Proper, JsonText.ProperKvs, Dict.WF, Dict.keys, this]
  | raw j => exact h

/-- The texts of messages say what they are to say. -/
theorem message_wire (uuid : String) (t : Int) (w : Smart.Wire) : Message uuid w (SmartText.wireJson uuid t w) := by
  have hone : ∀ r : Smart.Request, IsRequest uuid (SmartText.smartRequest uuid t r) r.method r.params := by
    intro r
    obtain ⟨m, q⟩ := r
    cases q <;> exact ⟨rfl, rfl, rfl, t, rfl⟩
  cases w with
  | single r => exact hone r
  | multi rs =>
    have : (rs.map SmartText.batchItem) = rs.map listed := by
      refine List.map_congr_left fun r _ => ?_
      obtain ⟨m, q⟩ := r
      cases q <;> rfl
    have h := hone ⟨"multipleRequest", some (.obj [("requests", .arr (rs.map SmartText.batchItem))])⟩
    rw [this] at h
    show IsRequest uuid _ _ _
    unfold SmartText.wireJson
    simp only
    rw [this]
    exact h
  | raw j => rfl

theorem queryAll_of_proper {q : Smart.Query} (h : ProperQuery q) : Smart.QueryAll JsonText.Proper q := by
  cases q with
  | name m => trivial
  | dict requests => exact fun kv hkv => h kv.1 kv.2 hkv

theorem proper_page (n : Nat) : JsonText.Proper (.obj [("start_index", .num n)]) := by
  simp [JsonText.Proper, JsonText.ProperKvs, Dict.WF, Dict.keys]

section
variable {α : Type} (c : BlockCipher) (h : Hashes) (d : Device) (stored : Bytes) (lib lib' : JsonText.Lib) (p : Program α)
variable (x : Chance) (cfg : Config) (uuid : String) (time : Nat → Int)

/-- What a stretch of a query does. -/
def Explained (a b : Smart.St (St (World α))) : Prop :=
  Good h stored a.world → Good h stored b.world ∧ ∃ ws trace, b.wire = a.wire ++ ws ∧ Sent uuid ws (trace.map Prod.fst) ∧
    Once p a.world.world.state trace b.world.world.state

theorem explained_keeps (hx : x.Fair) (hm : Matches cfg d stored) (hp : ∀ j a, JsonText.Proper (p.run j a).1) :
    Smart.Keeps (klapTransport c h (network c h d stored lib' p x) cfg lib uuid time) JsonText.Proper (Explained h stored p uuid) := by
  have hsend : ∀ w, Smart.WireAll JsonText.Proper w →
      Rel (Explained h stored p uuid) (Smart.send (klapTransport c h (network c h d stored lib' p x) cfg lib uuid time) w) := by
    intro w hw s hg
    obtain ⟨res, s', h1, h2, h3⟩ := send_step c h d stored lib lib' p x cfg hx hm hp _
      (proper_wire uuid (time s.world.world.count) w hw) s.world hg
    rw [Smart.send_apply]
    have : (klapTransport c h (network c h d stored lib' p x) cfg lib uuid time).send w s.world = (res, s') := h1
    rw [this]
    refine ⟨h2, [w], [(SmartText.wireJson uuid (time s.world.world.count) w, res)], rfl, .cons (message_wire uuid _ w) .nil, ?_⟩
    show Once p s.world.world.state _ s'.world.state
    rcases h3 with ⟨e, rfl, he⟩ | ⟨e, rfl, he⟩ | ⟨rfl, he⟩
    · rw [he]; exact .failed (.nil _)
    · rw [he]; exact .unanswered (.nil _)
    · rw [he]; exact .answered (.nil _)
  have hrefl : ∀ s, Explained h stored p uuid s s := fun s hg => ⟨hg, [], [], by simp, .nil, .nil _⟩
  have htrans : ∀ a b c, Explained h stored p uuid a b → Explained h stored p uuid b c → Explained h stored p uuid a c := by
    intro a b c h1 h2 hg
    obtain ⟨g1, ws1, t1, e1, s1, o1⟩ := h1 hg
    obtain ⟨g2, ws2, t2, e2, s2, o2⟩ := h2 g1
    exact ⟨g2, ws1 ++ ws2, t1 ++ t2, by rw [e2, e1, List.append_assoc], by rw [List.map_append]; exact s1.append s2, o1.append o2⟩
  refine ⟨hrefl, htrans, proper_page, fun r hr => hsend _ hr, fun rs hr => ?_, fun s hg => ⟨fun h => (nomatch h), [], [], by simp, .nil, .nil _⟩⟩
  refine Rel.bind htrans (hsend _ hr) fun resp => Rel.bind htrans (fun s => ?_) fun _ => Rel.pure hrefl _
  rw [Smart.checkBatch_apply]
  split
  · exact hrefl s
  · split
    · exact fun hg => ⟨hg, [], [], by simp, .nil, .nil _⟩
    · exact hrefl s

/-- **C75, queries.** Queries on a new protocol object with a KLAP transport, with whatever requests, batches, pages, missing
answers and retries they lead to, over whatever network: of the messages sent, those that were answered were carried out
exactly once, and the others at most once, in the order in which they were sent. -/
theorem C75_queries_once (hx : x.Fair) (hm : Matches cfg d stored) (hp : ∀ j a, JsonText.Proper (p.run j a).1) (n : Nat) (w : World α)
    (qs : List (Smart.Query × Int)) (hq : ∀ q ∈ qs, ProperQuery q.1) :
    ∃ trace, Sent uuid (queries (klapTransport c h (network c h d stored lib' p x) cfg lib uuid time) qs (fresh n w)).wire (trace.map Prod.fst) ∧
      Once p w.state trace (queries (klapTransport c h (network c h d stored lib' p x) cfg lib uuid time) qs (fresh n w)).world.world.state := by
  have k := explained_keeps c h d stored lib lib' p x cfg uuid time hx hm hp
  have key : ∀ (qs : List (Smart.Query × Int)) (s : Smart.St (St (World α))), (∀ q ∈ qs, ProperQuery q.1) →
      Explained h stored p uuid s (queries (klapTransport c h (network c h d stored lib' p x) cfg lib uuid time) qs s) := by
    intro qs
    induction qs with
    | nil => intro s _; exact k.refl s
    | cons q qs ih =>
      intro s hq
      exact k.trans _ _ _ (Smart.query_keeps _ k q.1 (queryAll_of_proper (hq q (.head _))) q.2 s) (ih _ fun q h => hq q (.tail _ h))
  obtain ⟨-, ws, trace, h1, h2, h3⟩ := key qs (fresh n w) hq (fun h => (nomatch h))
  refine ⟨trace, ?_, h3⟩
  rw [h1]
  exact h2

/-- **C75, results.** When a query returns, after whatever failures and retries, its result has an entry for every method and
nothing else, and each entry is what the device answers to that method. -/
theorem C75_query_result (hx : x.Fair) (hm : Matches cfg d stored) (hp : ∀ j a, JsonText.Proper (p.run j a).1)
    {ans : Smart.Request → SmartSpec.Answer} (hans : Speaks p uuid ans) (hu : SmartSpec.Unpaged ans) (requests : Dict String Json)
    (hwf : Dict.WF requests) (hq : ProperQuery (.dict requests)) (hlen : requests.length ≠ 1) (before : List (Smart.Query × Int))
    (hbefore : ∀ q ∈ before, ProperQuery q.1) (rc : Int) (n : Nat) (hn : n ≠ 1) (w : World α) (r : Dict String Smart.Entry)
    (hr : (Smart.query (klapTransport c h (network c h d stored lib' p x) cfg lib uuid time) (.dict requests) rc
      (queries (klapTransport c h (network c h d stored lib' p x) cfg lib uuid time) before (fresh n w))).1 = .ok r) :
    (∀ m, m ∈ r.keys ↔ m ∈ requests.keys) ∧
      ∀ m q, (m, q) ∈ requests → Dict.get? r m = some (SmartSpec.entryFor (ans (SmartSpec.requestFor m q))) := by
  let t := klapTransport c h (network c h d stored lib' p x) cfg lib uuid time
  have hone : ∀ (w : Smart.Wire), Smart.WireAll JsonText.Proper w → ∀ s : St (World α), Good h stored s → Good h stored (t.send w s).2 ∧
      ∀ resp, (t.send w s).1 = .ok resp → resp = (p.run (SmartText.wireJson uuid (time s.world.count) w) s.world.state).1 := by
    intro w hw s hg
    obtain ⟨res, s', h1, h2, h3⟩ := send_step c h d stored lib lib' p x cfg hx hm hp _ (proper_wire uuid (time s.world.count) w hw) s hg
    have : t.send w s = (res, s') := h1
    rw [this]
    refine ⟨h2, ?_⟩
    rintro resp rfl
    rcases h3 with ⟨e, he, -⟩ | ⟨e, he, -⟩ | ⟨he, -⟩
    · cases he
    · cases he
    · cases he; rfl
  have hh : Smart.HonestOr t (Good h stored) JsonText.Proper ans := by
    refine ⟨fun w hw s hs => (hone w hw s hs).1, fun s _ h => (nomatch h), fun r w hw hs resp he => ?_, fun rs w hw hs resp he => ?_⟩
    · rw [(hone _ hw w hs).2 resp he]
      exact hans.single r _ _ (message_wire uuid _ _)
    · rw [(hone _ hw w hs).2 resp he]
      exact hans.multi rs _ _ (message_wire uuid _ _)
  have k := Smart.honestOr_batchSize hh proper_page
  have key : ∀ (qs : List (Smart.Query × Int)) (s : Smart.St (St (World α))), (∀ q ∈ qs, ProperQuery q.1) → Good h stored s.world →
      Good h stored (queries t qs s).world ∧ (queries t qs s).batchSize = s.batchSize := by
    intro qs
    induction qs with
    | nil => intro s _ hg; exact ⟨hg, rfl⟩
    | cons q qs ih =>
      intro s hq hg
      obtain ⟨h1, h2⟩ := Smart.query_keeps _ k q.1 (queryAll_of_proper (hq q (.head _))) q.2 s hg
      obtain ⟨h3, h4⟩ := ih _ (fun q h => hq q (.tail _ h)) h1
      exact ⟨h3, h4.trans h2⟩
  obtain ⟨hg, hb⟩ := key before (fresh n w) hbefore (fun h => (nomatch h))
  exact Smart.query_honestOr hh proper_page hu requests hwf (fun kv hkv => hq kv.1 kv.2 hkv) hlen rc _ _ hg (by rw [hb]; exact hn) r
    (Prod.ext hr rfl)

/-- **C75, setters.** A query that sets something on the device, sent again after failures as often as it takes: when it
returns, the device is in the state asked for; when it raises, the device is in that state or as it was. -/
theorem C75_setter (hx : x.Fair) (hm : Matches cfg d stored) (hp : ∀ j a, JsonText.Proper (p.run j a).1) (m : String) (q : Json)
    (hq : JsonText.Proper q) {f : α → α} {v : Json} (hset : Sets p uuid (SmartSpec.requestFor m q) f v) (before : List (Smart.Query × Int))
    (hbefore : ∀ q ∈ before, ProperQuery q.1) (rc : Int) (n : Nat) (w : World α) :
    let t := klapTransport c h (network c h d stored lib' p x) cfg lib uuid time
    let s := queries t before (fresh n w)
    let out := Smart.query t (.dict [(m, q)]) rc s
    (∀ r, out.1 = .ok r → r = [(m, .value v)] ∧ out.2.world.world.state = f s.world.world.state) ∧
      ∀ e, out.1 = .error e → out.2.world.world.state = s.world.world.state ∨ out.2.world.world.state = f s.world.world.state := by
  intro t s out
  have hg : Good h stored s.world := by
    have k := explained_keeps c h d stored lib lib' p x cfg uuid time hx hm hp
    have key : ∀ (qs : List (Smart.Query × Int)) (s : Smart.St (St (World α))), (∀ q ∈ qs, ProperQuery q.1) → Good h stored s.world →
        Good h stored (queries t qs s).world := by
      intro qs
      induction qs with
      | nil => intro s _ hg; exact hg
      | cons q qs ih =>
        intro s hq hg
        exact ih _ (fun q h => hq q (.tail _ h)) (Smart.query_keeps _ k q.1 (queryAll_of_proper (hq q (.head _))) q.2 s hg).1
    exact key before _ hbefore (fun h => (nomatch h))
  -- one attempt
  have hatt : ∀ s : Smart.St (St (World α)), Good h stored s.world → Good h stored (Smart.executeQuery t (.dict [(m, q)]) s).2.world ∧
      ((∃ e, (Smart.executeQuery t (.dict [(m, q)]) s).1 = .error e ∧
          ((Smart.executeQuery t (.dict [(m, q)]) s).2.world.world.state = s.world.world.state ∨
            (Smart.executeQuery t (.dict [(m, q)]) s).2.world.world.state = f s.world.world.state)) ∨
        ((Smart.executeQuery t (.dict [(m, q)]) s).1 = .ok [(m, .value v)] ∧
          (Smart.executeQuery t (.dict [(m, q)]) s).2.world.world.state = f s.world.world.state)) := by
    intro s hg
    have hw : Smart.WireAll JsonText.Proper (.single (Smart.mkRequest m q)) := Smart.mkRequest_wireAll hq
    obtain ⟨res, s', h1, h2, h3⟩ := send_step c h d stored lib lib' p x cfg hx hm hp _
      (proper_wire uuid (time s.world.world.count) _ hw) s.world hg
    have ht : t.send (.single (Smart.mkRequest m q)) s.world = (res, s') := h1
    have hst : (p.run (SmartText.wireJson uuid (time s.world.world.count) (.single (Smart.mkRequest m q))) s.world.world.state).2 =
        f s.world.world.state := hset.state _ _ (message_wire uuid _ _)
    rw [Smart.executeQuery_one, bind_apply]
    rcases h3 with ⟨e, rfl, he⟩ | ⟨e, rfl, he⟩ | ⟨rfl, he⟩
    · have : Smart.executeSingle t m q s = (.error e, { s with world := s', wire := s.wire ++ [.single (Smart.mkRequest m q)] }) := by
        unfold Smart.executeSingle
        rw [bind_apply, Smart.send_apply, ht]
      rw [this]
      exact ⟨h2, .inl ⟨e, rfl, .inl he⟩⟩
    · have : Smart.executeSingle t m q s = (.error e, { s with world := s', wire := s.wire ++ [.single (Smart.mkRequest m q)] }) := by
        unfold Smart.executeSingle
        rw [bind_apply, Smart.send_apply, ht]
      rw [this]
      exact ⟨h2, .inl ⟨e, rfl, .inr (he.trans hst)⟩⟩
    · rw [Smart.executeSingle_carries t ht (hset.answer _ _ (message_wire uuid _ (.single (Smart.mkRequest m q))))]
      simp only
      have hc : Smart.completeEntry (some fun m _ n => Smart.fetchPage t m n) m q (.value v)
          { s with world := s', wire := s.wire ++ [.single (Smart.mkRequest m q)] } =
          (.ok (.value v), { s with world := s', wire := s.wire ++ [.single (Smart.mkRequest m q)] }) := by
        unfold Smart.completeEntry
        simp only
        split
        · rw [bind_apply, Smart.handleResponseLists_unpaged _ v hset.unpaged]
          rfl
        · rfl
      rw [bind_apply, hc]
      exact ⟨h2, .inr ⟨rfl, he.trans hst⟩⟩
  let R : Smart.St (St (World α)) → Smart.St (St (World α)) → Prop := fun a b =>
    Good h stored a.world → Good h stored b.world ∧ (b.world.world.state = a.world.world.state ∨ b.world.world.state = f a.world.world.state)
  have hrefl : ∀ s, R s s := fun s hg => ⟨hg, .inl rfl⟩
  have htrans : ∀ a b c, R a b → R b c → R a c := by
    intro a b c h1 h2 hg
    obtain ⟨g1, e1⟩ := h1 hg
    obtain ⟨g2, e2⟩ := h2 g1
    refine ⟨g2, ?_⟩
    rcases e1 with e1 | e1 <;> rcases e2 with e2 | e2 <;> rw [e2, e1]
    · exact .inl rfl
    · exact .inr rfl
    · exact .inr rfl
    · rw [hset.idem]; exact .inr rfl
  have hattR : Rel R (Smart.executeQuery t (.dict [(m, q)])) := by
    intro s hg
    obtain ⟨h1, h2⟩ := hatt s hg
    refine ⟨h1, ?_⟩
    rcases h2 with ⟨e, -, h2⟩ | ⟨-, h2⟩
    · exact h2
    · exact .inr h2
  have hresetR : ∀ s : Smart.St (St (World α)), R s { s with world := (t.reset s.world).2 } := fun s _ => ⟨fun h => (nomatch h), .inl rfl⟩
  constructor
  · intro r hr
    obtain ⟨s1, h1, h2⟩ := Smart.query_last t _ rc hrefl htrans hattR hresetR (s := s) (s' := out.2) (r := r) (Prod.ext hr rfl)
    obtain ⟨g1, e1⟩ := h1 hg
    obtain ⟨-, h3⟩ := hatt s1 g1
    rw [h2] at h3
    rcases h3 with ⟨e, he, -⟩ | ⟨h3, h4⟩
    · cases he
    · cases h3
      refine ⟨rfl, ?_⟩
      simp only at h4
      rcases e1 with e1 | e1
      · rw [h4, e1]
      · rw [h4, e1, hset.idem]
  · intro e _
    have : Rel R (Smart.query t (.dict [(m, q)]) rc) := by
      rw [Smart.query_unfold]
      exact Retry.loop_rel hrefl htrans true _ (fun _ => hattR) (fun s => hresetR s) (fun s => hrefl s) rc _
    exact (this s hg).2

end
/-! ## When nothing goes wrong -/

section
variable {α : Type} (c : BlockCipher) (h : Hashes) (d : Device) (stored : Bytes) (lib lib' : JsonText.Lib) (p : Program α)
variable (x : Chance) (cfg : Config) {N : Nat}

theorem exchange_calm {M : Nat} (hc : x.CalmFrom h stored M N) (url : Url) (payload : Bytes) (w : World α) (hw : M ≤ w.count) :
    exchange c h d stored lib p x url payload w =
      (.ok (handle c h d stored lib p x url payload w).1, { (handle c h d stored lib p x url payload w).2 with count := w.count + 1 }) := by
  unfold exchange
  simp only [hc.restart _ hw, hc.fate _ hw, Bool.false_eq_true, if_false]

/-- What holds between requests when the session lasts for `k` more. -/
def Steady (M k : Nat) (s : St (World α)) : Prop :=
  M ≤ s.world.count ∧ (s.handshakeDone = true → ∃ ses l r, s.session = some ses ∧ HasKeys (keys h l r stored) ses ∧
    s.world.session = some (keys h l r stored) ∧ s.world.last ≤ ses.seq ∧ -2 ^ 31 ≤ ses.seq + 1 ∧ ses.seq + k < 2 ^ 31)

theorem Steady.mono {M k k' : Nat} (hk : k' ≤ k) {s : St (World α)} (hs : Steady h stored M k s) : Steady h stored M k' s := by
  refine ⟨hs.1, fun hd => ?_⟩
  obtain ⟨ses, l, r, h1, h2, h3, h4, h5, h6⟩ := hs.2 hd
  exact ⟨ses, l, r, h1, h2, h3, h4, h5, by omega⟩

theorem handshake_calm {M : Nat} (hc : x.CalmFrom h stored M N) (hm : Matches cfg d stored) (s : St (World α)) (hM : M ≤ s.world.count) :
    ∃ s', performHandshake h (network c h d stored lib p x) cfg s = (.ok (), s') ∧ s'.handshakeDone = true ∧ Steady h stored M N s' ∧
      s'.world.state = s.world.state := by
  have htimeout : ∀ k, M ≤ k → ∃ n, timeoutOf (network c h d stored lib p x) (x.cookie k "TIMEOUT") = .ok n := by
    intro k hk
    unfold timeoutOf
    cases hv : x.cookie k "TIMEOUT" with
    | none => exact ⟨_, rfl⟩
    | some v =>
      simp only
      by_cases hv' : v = ""
      · rw [if_pos hv']; exact ⟨_, rfl⟩
      · rw [if_neg hv']
        obtain ⟨n, hn⟩ := Option.isSome_iff_exists.1 ((hc.lifetime k hk v hv).resolve_left hv')
        exact ⟨n, by show (match x.int v with | some n => _ | none => _) = _; rw [hn]⟩
  have h1 : ∀ s : St (World α), M ≤ s.world.count → performHandshake1 (network c h d stored lib p x) cfg s =
      (.ok (x.localSeed s.world.count, x.remoteSeed (s.world.count + 1), stored),
        { s with
          world := { s.world with
            seeds := some (x.localSeed s.world.count, x.remoteSeed (s.world.count + 1)), session := none, count := s.world.count + 2 }
          log := s.log ++ [.post .handshake1 (x.localSeed s.world.count) none (.ok (200, x.remoteSeed (s.world.count + 1) ++
            d.proof (x.localSeed s.world.count) (x.remoteSeed (s.world.count + 1)) stored))] }) := by
    intro s hM
    have hlen := hc.seed (s.world.count + 1) (by omega)
    have hmatch : matchHash cfg (x.localSeed s.world.count) (x.remoteSeed (s.world.count + 1))
        (d.proof (x.localSeed s.world.count) (x.remoteSeed (s.world.count + 1)) stored) = .ok stored := by
      unfold matchHash
      rw [hm.hash, hm.proof, if_pos rfl]
    unfold performHandshake1
    simp only [bind_apply, token, network, post, exchange_calm c h d stored lib p x hc .handshake1 (x.localSeed s.world.count)
      { s.world with count := s.world.count + 1 } (Nat.le_succ_of_le hM), handle, ne_eq, not_true, if_false,
      List.take_left' hlen, List.drop_left' hlen, hm.length, lift_apply, hmatch, pure_apply]
  have h2 : ∀ (s : St (World α)) l r, M ≤ s.world.count → s.world.seeds = some (l, r) →
      performHandshake2 h (network c h d stored lib p x) cfg l r stored s = (.ok (Session.new h l r stored),
        { s with
          world := { s.world with seeds := none, session := some (keys h l r stored), last := (keys h l r stored).start, count := s.world.count + 1 }
          log := s.log ++ [.post .handshake2 (cfg.variant.handshake2 l r stored) s.sessionCookie (.ok (200, []))] }) := by
    intro s l r hM hs
    unfold performHandshake2
    simp only [bind_apply, get_apply, network, post, exchange_calm c h d stored lib p x hc _ _ _ hM, handle, hs, hm.expects, if_true, ne_eq,
      not_true, if_false, pure_apply]
  unfold performHandshake
  simp only [bind_apply, modify_apply, h1 { s with handshakeDone := false, expireAt := none, sessionCookie := none } hM, getCookie]
  obtain ⟨n, hn⟩ := htimeout (s.world.count + 2) (by omega)
  have hn' : timeoutOf (network c h d stored lib p x) ((network c h d stored lib p x).cookie "TIMEOUT"
      { s.world with seeds := some (x.localSeed s.world.count, x.remoteSeed (s.world.count + 1)), session := none, count := s.world.count + 2 }) = .ok n := hn
  simp only [hn', lift_apply, now]
  rw [h2 _ (x.localSeed s.world.count) (x.remoteSeed (s.world.count + 1)) (by show M ≤ s.world.count + 2 + 1; omega) rfl]
  refine ⟨_, rfl, rfl, ⟨by show M ≤ s.world.count + 2 + 1 + 1; omega, fun _ => ⟨_, x.localSeed s.world.count, x.remoteSeed (s.world.count + 1), rfl, ?_⟩⟩, rfl⟩
  obtain ⟨k1, k2, k3, k4⟩ := new_eq h (x.localSeed s.world.count) (x.remoteSeed (s.world.count + 1)) stored
  have hstart := hc.start s.world.count (s.world.count + 1) hM (by omega)
  have hrange := keys_start_range h (x.localSeed s.world.count) (x.remoteSeed (s.world.count + 1)) stored
  refine ⟨⟨k1, k2, k3⟩, rfl, ?_, ?_, ?_⟩
  · rw [k4]; exact Int.le_refl _
  · rw [k4]; omega
  · rw [k4]; omega

theorem sendRequest_calm {M : Nat} (hc : x.CalmFrom h stored M N) (hp : ∀ j a, JsonText.Proper (p.run j a).1) (j : Json) (hj : JsonText.Proper j)
    (s : St (World α)) {k : Nat} (hs : Steady h stored M (k + 1) s) (hd : s.handshakeDone = true) :
    ∃ s', sendRequest c h (network c h d stored lib' p x) fromUtf8 JsonText.loads (utf8 (JsonText.dumps lib j)) s =
        (.ok (p.run j s.world.state).1, s') ∧ Steady h stored M k s' ∧ s'.world.state = (p.run j s.world.state).2 := by
  obtain ⟨hM, hs⟩ := hs
  obtain ⟨ses, l, r, hses, hkeys, hw, hlast, hlo, hhi⟩ := hs hd
  have hiv := keys_iv_length h l r stored
  generalize hK : keys h l r stored = K at *
  cases hE : ses.encrypt c h (utf8 (JsonText.dumps lib j)) with
  | mk o ses' =>
  cases o with
  | error e =>
    obtain ⟨-, -, -, hpack⟩ := encrypt_fails c h hkeys hE
    exfalso
    revert hpack
    unfold Crypto.packI32
    rw [if_pos (by constructor <;> omega)]
    simp
  | ok pn =>
    obtain ⟨pl, n⟩ := pn
    obtain ⟨hn, hseq, hk', hreads, packed, hpack, hcipher⟩ := encrypt_reads c h hiv hkeys hE
    obtain ⟨body, hbody, hh⟩ := handle_request c h d stored lib' lib p x (w := s.world) hw (by omega) hreads hj hpack
    have hans : deviceAnswers c K n
        (h.sha256 (K.sig ++ packed ++ Crypto.encrypt c K.key (K.iv ++ packed)
          (utf8 (JsonText.dumps lib' (p.run j s.world.state).1)))) (utf8 (JsonText.dumps lib' (p.run j s.world.state).1)) = some body := by
      unfold sealed at hbody
      rw [hpack] at hbody
      exact hbody
    subst hK
    have hrep := C11_reply c h l r stored ses ses' hkeys _ pl n hE _ _ body (h.sha256_length _) hans
    have hopen : openResponse c fromUtf8 JsonText.loads (some ses') body = .ok (p.run j s.world.state).1 := by
      unfold openResponse
      simp only [hrep, fromUtf8_utf8, JsonText.C70_round_trip lib' _ (hp j s.world.state)]
    unfold sendRequest
    simp only [bind_apply, encryptRequest, hses, hE, get_apply, post, network, exchange_calm c h d stored lib' p x hc _ _ _ hM, hh]
    rw [if_neg (by decide), if_neg (by decide)]
    simp only [bind_apply, get_apply, lift_apply, hopen]
    exact ⟨_, rfl, ⟨Nat.le_succ_of_le hM, fun _ => ⟨ses', l, r, rfl, hk', hw, by show n ≤ _; omega, by omega, by omega⟩⟩, rfl⟩

/-- What a request starts with: a handshake, or nothing. -/
theorem ensure_calm {M : Nat} (hc : x.CalmFrom h stored M N) (hm : Matches cfg d stored) (s : St (World α)) (hM : M ≤ s.world.count) :
    ∃ s1, ensureHandshake h (network c h d stored lib' p x) cfg s = (.ok (), s1) ∧ s1.handshakeDone = true ∧
      s1.world.state = s.world.state ∧ (Steady h stored M N s1 ∨ s.handshakeDone = true ∧ M ≤ s1.world.count ∧ s1.session = s.session ∧
        s1.world.session = s.world.session ∧ s1.world.last = s.world.last) := by
  have hshake : ∀ s0 : St (World α), M ≤ s0.world.count → s0.world.state = s.world.state →
      ∃ s1, performHandshake h (network c h d stored lib' p x) cfg s0 = (.ok (), s1) ∧
      s1.handshakeDone = true ∧ s1.world.state = s.world.state ∧ (Steady h stored M N s1 ∨ s.handshakeDone = true ∧ M ≤ s1.world.count ∧
        s1.session = s.session ∧ s1.world.session = s.world.session ∧ s1.world.last = s.world.last) := by
    intro s0 hM he
    obtain ⟨s1, h1, h2, h3, h4⟩ := handshake_calm c h d stored lib' p x cfg hc hm s0 hM
    exact ⟨s1, h1, h2, h4.trans he, .inl h3⟩
  unfold ensureHandshake needsHandshake sessionExpired
  simp only [bind_apply, get_apply]
  by_cases hdone : s.handshakeDone = false
  · rw [if_pos hdone]
    simp only [pure_apply, if_true]
    exact hshake s hM rfl
  · rw [if_neg hdone]
    simp only [bind_apply, get_apply]
    cases s.expireAt with
    | none =>
      simp only [pure_apply, if_true]
      exact hshake s hM rfl
    | some t =>
      simp only [bind_apply, now, network, pure_apply]
      split
      · exact hshake { s with world := { s.world with count := s.world.count + 1 }, log := s.log ++ [.clock (x.clock s.world.count)] }
          (Nat.le_succ_of_le hM) rfl
      · exact ⟨_, rfl, by simpa using hdone, rfl, .inr ⟨by simpa using hdone, Nat.le_succ_of_le hM, rfl, rfl, rfl⟩⟩

theorem send_calm {M : Nat} (hc : x.CalmFrom h stored M N) (hm : Matches cfg d stored) (hp : ∀ j a, JsonText.Proper (p.run j a).1) (j : Json)
    (hj : JsonText.Proper j) (s : St (World α)) {k : Nat} (hk : k < N) (hs : Steady h stored M (k + 1) s) :
    ∃ s', Klap.send c h (network c h d stored lib' p x) cfg fromUtf8 JsonText.loads (utf8 (JsonText.dumps lib j)) s =
        (.ok (p.run j s.world.state).1, s') ∧ Steady h stored M k s' ∧ s'.world.state = (p.run j s.world.state).2 := by
  obtain ⟨s1, h1, h2, h3, h4⟩ := ensure_calm c h d stored lib' p x cfg hc hm s hs.1
  have hs1 : Steady h stored M (k + 1) s1 := by
    rcases h4 with h4 | ⟨hd, g1, g2, g3, g4⟩
    · exact h4.mono h stored hk
    · refine ⟨g1, fun _ => ?_⟩
      rw [g2, g3, g4]
      exact hs.2 hd
  unfold Klap.send
  rw [bind_apply, h1, ← h3]
  exact sendRequest_calm c h d stored lib lib' p x hc hp j hj s1 hs1 h2

/-- **C75, without failures.** When the network works, the device is not restarted, and no session is too near the end of its
sequence numbers, then every request is answered, however many handshakes expired sessions and resets make necessary. -/
theorem C75_klap_reliable (hm : Matches cfg d stored) (hp : ∀ j a, JsonText.Proper (p.run j a).1) (w : World α) (ops : List Op)
    (hops : ∀ j, .send j ∈ ops → JsonText.Proper j) (hc : x.CalmFrom h stored w.count ops.length) :
    ∀ o ∈ (history c h (network c h d stored lib' p x) cfg lib ops { world := w }).1, ∃ v, o.2 = .ok v := by
  have key : ∀ (M N : Nat) (ops : List Op) (s : St (World α)), ops.length ≤ N → x.CalmFrom h stored M N → Steady h stored M ops.length s →
      (∀ j, .send j ∈ ops → JsonText.Proper j) →
      ∀ o ∈ (history c h (network c h d stored lib' p x) cfg lib ops s).1, ∃ v, o.2 = .ok v := by
    intro M N ops
    induction ops with
    | nil => intro s _ _ _ _ o ho; cases ho
    | cons op ops ih =>
      intro s hk hc hs hops
      rw [List.length_cons] at hk hs
      cases op with
      | reset => exact ih (reset s).2 (by omega) hc ⟨hs.1, fun h => by cases h⟩ fun j hj => hops j (.tail _ hj)
      | send j =>
        obtain ⟨s', h1, h2, -⟩ := send_calm c h d stored lib lib' p x cfg hc hm hp j (hops j (.head _)) s (by omega) hs
        simp only [history, h1]
        intro o ho
        rcases List.mem_cons.1 ho with rfl | ho
        · exact ⟨_, rfl⟩
        · exact ih s' (by omega) hc h2 (fun j hj => hops j (.tail _ hj)) o ho
  exact key w.count ops.length ops { world := w } (Nat.le_refl _) hc ⟨Nat.le_refl _, fun h => by cases h⟩ hops

end

/-! ## Examples -/

/-- A counter: every request is answered with the number of requests before it. -/
def counter : Program Nat where
  run _ n := (.obj [("error_code", .num 0), ("result", .num n)], n + 1)

/-- The answer to the second request does not arrive, the third is refused on the way, the device restarts before the fourth. -/
def sampleChance : Chance where
  fate n := if n = 6 then .unanswered (.error .timeout) else if n = 8 then .lost (.ok (500, [])) else .fine
  restart n := n = 10
  remoteSeed _ := List.replicate 16 7
  localSeed _ := List.replicate 16 3
  clock n := n
  cookie _ _ := none
  int _ := none

def sampleHash : Bytes := (deviceV2 Crypto.toyHashes).stored [117] [112]

def sampleConfig : Config := Config.make (v2 Crypto.toyHashes) (some ⟨[117], [112]⟩) none []

theorem sampleChance_fair : sampleChance.Fair := by
  constructor
  · intro n
    unfold sampleChance
    simp only
    split
    · intro b hb; cases hb
    · split
      · intro b hb; cases hb
      · trivial
  · intro n; rfl

theorem sample_matches : Matches sampleConfig (deviceV2 Crypto.toyHashes) sampleHash := by
  refine ⟨by decide +kernel, fun l r a => ?_, fun l r a => ?_, fun l r a => Crypto.toyHashes.sha256_length _⟩
  · show Crypto.toyHashes.sha256 _ = Crypto.toyHashes.sha256 _
    rw [List.append_assoc]
  · show Crypto.toyHashes.sha256 _ = Crypto.toyHashes.sha256 _
    rw [List.append_assoc]

theorem counter_proper (j : Json) (n : Nat) : JsonText.Proper (counter.run j n).1 := by
  simp [counter, JsonText.Proper, JsonText.ProperKvs, Dict.WF, Dict.keys]

def sampleWorld : World Nat := ⟨none, none, 0, 0, 0⟩

def sampleNetwork (x : Chance) : Env (World Nat) :=
  network Crypto.toyCipher Crypto.toyHashes (deviceV2 Crypto.toyHashes) sampleHash .orjson counter x

def sampleOps : List Op := [.send (.str "a"), .send (.str "b"), .send (.str "c"), .send (.str "d"), .send (.str "e"), .reset, .send (.str "f")]

/-- Six requests: the second was carried out but not answered, the third and fourth were not carried out. -/
example : ((history Crypto.toyCipher Crypto.toyHashes (sampleNetwork sampleChance) sampleConfig .python sampleOps { world := sampleWorld }).1.map
      fun o => o.2.toOption.bind fun v => v.get? "result") = [some (.num 0), none, none, none, some (.num 2), some (.num 3)] ∧
    (history Crypto.toyCipher Crypto.toyHashes (sampleNetwork sampleChance) sampleConfig .python sampleOps { world := sampleWorld }).2.world.state = 4 := by
  decide +kernel

example : Once counter 0
    (history Crypto.toyCipher Crypto.toyHashes (sampleNetwork sampleChance) sampleConfig .python sampleOps { world := sampleWorld }).1
    (history Crypto.toyCipher Crypto.toyHashes (sampleNetwork sampleChance) sampleConfig .python sampleOps { world := sampleWorld }).2.world.state :=
  C75_klap_once Crypto.toyCipher Crypto.toyHashes _ sampleHash .python .orjson counter sampleChance sampleConfig sampleChance_fair
    sample_matches counter_proper sampleWorld sampleOps (by
      intro j hj
      simp only [sampleOps, List.mem_cons, Op.send.injEq, List.not_mem_nil, or_false, reduceCtorEq, false_or] at hj
      rcases hj with rfl | rfl | rfl | rfl | rfl | rfl <;> simp [JsonText.Proper])

/-- The same without failures. -/
def calmChance : Chance := { sampleChance with fate := fun _ => .fine, restart := fun _ => false }

theorem calmChance_calm (m n : Nat) (hn : n < 2 ^ 24) : calmChance.CalmFrom Crypto.toyHashes sampleHash m n := by
  refine ⟨fun _ _ => rfl, fun _ _ => rfl, fun _ _ => rfl, fun k _ v hv => (nomatch hv), fun k m _ _ => ?_⟩
  have : (keys Crypto.toyHashes (List.replicate 16 3) (List.replicate 16 7) sampleHash).start = 117901063 := by decide +kernel
  show (keys Crypto.toyHashes (List.replicate 16 3) (List.replicate 16 7) sampleHash).start + n < 2 ^ 31
  rw [this]
  omega

example : ((history Crypto.toyCipher Crypto.toyHashes (sampleNetwork calmChance) sampleConfig .python sampleOps { world := sampleWorld }).1.map
      fun o => o.2.toOption.bind fun v => v.get? "result") =
    [some (.num 0), some (.num 1), some (.num 2), some (.num 3), some (.num 4), some (.num 5)] := by
  decide +kernel

/-- A device with one setting: `set` changes it, everything else is refused; batches are answered in the opposite order, and
batches in batches are ignored. -/
def answerTo (r : Smart.Request) : SmartSpec.Answer := if r.method = "set" then (0, some (.obj [])) else (-1008, none)

def answerJson (a : SmartSpec.Answer) : List (String × Json) :=
  ("error_code", .num a.1) :: match a.2 with | some v => [("result", v)] | none => []

/-- The method and params of a request. -/
def readRequest (j : Json) : Smart.Request :=
  ⟨match j.get? "method" with | some (.str m) => m | _ => "", j.get? "params"⟩

def settingAnswers (r : Smart.Request) : SmartSpec.Answer :=
  if r.method = "multipleRequest" then
    match (r.params.bind fun q => q.get? "requests") with
    | some (.arr l) =>
      (0, some (.obj [("responses", .arr (((l.map readRequest).reverse.filter fun r => r.method ≠ "multipleRequest").map fun r =>
        .obj (("method", .str r.method) :: answerJson (answerTo r))))]))
    | _ => (-1008, none)
  else answerTo r

def setting : Program Json where
  run j a := (.obj (answerJson (settingAnswers (readRequest j))), if (readRequest j).method = "set" then (readRequest j).params.getD .null else a)

theorem answerJson_carries (a : SmartSpec.Answer) : SmartSpec.Carries (.obj (answerJson a)) a := by
  refine ⟨⟨_, rfl⟩, rfl, ?_⟩
  unfold answerJson
  cases a.2 <;> rfl

theorem readRequest_of {j : Json} {m : String} {q : Option Json} (h : IsRequest "u" j m q) : readRequest j = ⟨m, q⟩ := by
  unfold readRequest
  rw [h.1, h.2.1]

/-- It answers as `settingAnswers` says. -/
theorem setting_speaks : Speaks setting "u" settingAnswers := by
  constructor
  · intro r j a hj
    have : readRequest j = r := readRequest_of hj
    simp only [setting, this]
    exact answerJson_carries _
  · intro rs j a hj
    have hrs : (rs.map listed).map readRequest = rs := by
      rw [List.map_map]
      refine (List.map_congr_left fun r _ => ?_).trans (List.map_id rs)
      obtain ⟨m, q⟩ := r
      cases q <;> rfl
    have hans : (setting.run j a).1 = .obj [("error_code", .num 0), ("result",
        .obj [("responses", .arr ((rs.reverse.filter fun r => r.method ≠ "multipleRequest").map fun r =>
          .obj (("method", .str r.method) :: answerJson (answerTo r))))])] := by
      have hread := readRequest_of hj
      simp only [setting, hread, settingAnswers, if_true]
      simp only [Option.bind_some, Json.get?, Dict.get?, if_true]
      rw [hrs]
      rfl
    rw [hans]
    refine ⟨_, rfl, ⟨_, rfl, rfl⟩, ?_⟩
    intro item hitem
    obtain ⟨r, hr, rfl⟩ := List.mem_map.1 hitem
    obtain ⟨hr, hne⟩ := List.mem_filter.1 hr
    refine ⟨r, List.mem_reverse.1 hr, rfl, ⟨_, rfl⟩, ?_⟩
    have hne : r.method ≠ "multipleRequest" := by simpa using hne
    have : settingAnswers r = answerTo r := by unfold settingAnswers; rw [if_neg hne]
    rw [this]
    obtain ⟨-, h1, h2⟩ := answerJson_carries (answerTo r)
    exact ⟨h1, h2⟩

theorem setting_unpaged : SmartSpec.Unpaged settingAnswers := by
  intro r v hv
  unfold settingAnswers at hv
  split at hv
  · split at hv
    · cases hv; rfl
    · cases hv
  · unfold answerTo at hv
    split at hv
    · cases hv; rfl
    · cases hv

theorem setting_proper (j a : Json) : JsonText.Proper (setting.run j a).1 := by
  have hb : ∀ rs : List Smart.Request, JsonText.ProperList (rs.map fun r => .obj (("method", .str r.method) :: answerJson (answerTo r))) := by
    intro rs
    induction rs with
    | nil => simp [JsonText.ProperList]
    | cons r rs ih =>
      rw [List.map_cons, JsonText.ProperList]
      refine ⟨?_, ih⟩
      unfold answerTo
      split <;> simp [answerJson, JsonText.Proper, JsonText.ProperKvs, Dict.WF, Dict.keys]
  unfold setting settingAnswers
  simp only
  split
  · split
    · show JsonText.Proper (.obj [("error_code", .num 0), ("result", .obj [("responses", .arr (List.map _ _))])])
      generalize hl : List.map _ _ = items
      have : JsonText.ProperList items := by rw [← hl]; exact hb _
      simp [JsonText.Proper, JsonText.ProperKvs, Dict.WF, Dict.keys, this]
    · simp [answerJson, JsonText.Proper, JsonText.ProperKvs, Dict.WF, Dict.keys]
  · unfold answerTo
    split <;> simp [answerJson, JsonText.Proper, JsonText.ProperKvs, Dict.WF, Dict.keys]

/-- `set` is a setter in the sense of the theorem. -/
theorem setting_sets (q : Json) (hq : q.truthy = true) :
    Sets setting "u" (SmartSpec.requestFor "set" q) (fun _ => q) (.obj []) := by
  have hr : ∀ j, Message "u" (.single (SmartSpec.requestFor "set" q)) j → readRequest j = ⟨"set", some q⟩ := by
    intro j hj
    have : SmartSpec.requestFor "set" q = ⟨"set", some q⟩ := by unfold SmartSpec.requestFor; rw [if_pos hq]
    rw [this] at hj
    exact readRequest_of hj
  refine ⟨fun j a hj => ?_, fun _ => rfl, fun j a hj => ?_, rfl⟩
  · simp only [setting, hr j hj]
    rfl
  · have : (setting.run j a).1 = .obj (answerJson (0, some (.obj []))) := by
      simp only [setting, hr j hj]
      rfl
    rw [this]
    exact answerJson_carries _

/-- The answer to the first attempt does not arrive, and the device restarts before the second. -/
def setterChance : Chance := { sampleChance with fate := fun n => if n = 4 then .unanswered (.error .timeout) else .fine, restart := fun n => n = 9 }

def setterTransport : Smart.Transport (St (World Json)) :=
  klapTransport Crypto.toyCipher Crypto.toyHashes
    (network Crypto.toyCipher Crypto.toyHashes (deviceV2 Crypto.toyHashes) sampleHash .orjson setting setterChance) sampleConfig .python "u" fun n => n

/-- The setter is carried out twice, and the device is in the state asked for. -/
example : (Smart.query setterTransport (.dict [("set", .num 5)]) 3 (fresh 5 ⟨none, none, 0, .null, 0⟩)).1 = .ok [("set", .value (.obj []))] ∧
    (Smart.query setterTransport (.dict [("set", .num 5)]) 3 (fresh 5 ⟨none, none, 0, .null, 0⟩)).2.wire.length = 3 ∧
    (Smart.query setterTransport (.dict [("set", .num 5)]) 3 (fresh 5 ⟨none, none, 0, .null, 0⟩)).2.world.world.state = .num 5 := by
  decide +kernel

/-- A query of three methods whose first attempt is not answered; the batch comes back in the opposite order. -/
example : (Smart.query setterTransport (.dict [("a", .null), ("set", .num 5), ("b", .null)]) 3 (fresh 5 ⟨none, none, 0, .null, 0⟩)).1 =
    .ok [("b", .error (-1008)), ("set", .value (.obj [])), ("a", .error (-1008))] := by
  decide +kernel


end Kasa.EndToEnd
