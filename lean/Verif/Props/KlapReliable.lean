import Verif.Props.EndToEnd
import Verif.Lemmas.Heals
/-!
# C87: setters over the KLAP transport after failures
-/

namespace Kasa.EndToEnd
open PyM KlapSpec Klap

section
variable {α : Type} (c : BlockCipher) (h : Hashes) (d : Device) (stored : Bytes) (lib lib' : JsonText.Lib) (p : Program α)
variable (x : Chance) (cfg : Config) {M N : Nat} (uuid : String) (time : Nat → Int)

/-- The session of a transport, if there is one, has a sequence number left: the next one fits into four bytes. -/
def HasNext (s : St (World α)) : Prop := ∀ ses, s.session = some ses → (Crypto.packI32 (ses.seq + 1)).isSome

/-- A request once nothing goes wrong any more: answered, or refused because the device forgot the session. -/
theorem late_send (hc : x.CalmFrom h stored M N) (hN : 1 ≤ N) (hm : Matches cfg d stored) (hp : ∀ j a, JsonText.Proper (p.run j a).1) (j : Json)
    (hj : JsonText.Proper j) (s : St (World α)) (hg : Good h stored s) (hM : M ≤ s.world.count) (hn : HasNext s) :
    ∃ res s', Klap.send c h (network c h d stored lib' p x) cfg fromUtf8 JsonText.loads (utf8 (JsonText.dumps lib j)) s = (res, s') ∧
      M ≤ s'.world.count ∧ ((res = .ok (p.run j s.world.state).1 ∧ s'.world.state = (p.run j s.world.state).2) ∨
        (res = .error (.retryable none) ∧ s'.world.state = s.world.state ∧ s'.handshakeDone = false)) := by
  obtain ⟨s1, h1, h2, h3, h4⟩ := ensure_calm c h d stored lib' p x cfg hc hm s hM
  unfold Klap.send
  rw [bind_apply, h1]
  simp only
  have hcase : Steady h stored M 1 s1 ∨ M ≤ s1.world.count ∧ s1.world.session = none ∧
      ∃ ses l r, s1.session = some ses ∧ HasKeys (keys h l r stored) ses ∧ (Crypto.packI32 (ses.seq + 1)).isSome := by
    rcases h4 with h4 | ⟨hd, g1, g2, g3, g4⟩
    · exact .inl (h4.mono h stored hN)
    · obtain ⟨ses, l, r, k1, k2, k3⟩ := hg hd
      rcases k3 with k3 | ⟨k3, k4⟩
      · exact .inr ⟨g1, g3.trans k3, ses, l, r, g2.trans k1, k2, hn ses k1⟩
      · refine .inl ⟨g1, fun _ => ⟨ses, l, r, g2.trans k1, k2, g3.trans k3, by rw [g4]; exact k4, ?_⟩⟩
        have hb := hn ses k1
        unfold Crypto.packI32 at hb
        split at hb
        · next hr => constructor <;> omega
        · cases hb
  rcases hcase with hs | ⟨hM1, hw, ses, l, r, hses, hk, hpk⟩
  · obtain ⟨s', g1, g2, g3⟩ := sendRequest_calm c h d stored lib lib' p x hc hp j hj s1 (k := 0) hs h2
    exact ⟨_, s', g1, g2.1, .inl ⟨by rw [h3], by rw [g3, h3]⟩⟩
  · cases hE : ses.encrypt c h (utf8 (JsonText.dumps lib j)) with
    | mk o ses' =>
    cases o with
    | error e =>
      obtain ⟨-, -, -, hf⟩ := encrypt_fails c h hk hE
      rw [hf] at hpk
      cases hpk
    | ok pn =>
      obtain ⟨pl, n⟩ := pn
      have hh : handle c h d stored lib' p x (.request n) pl s1.world = ((403, []), s1.world) := by
        unfold handle; simp only [hw]
      unfold sendRequest
      simp only [bind_apply, encryptRequest, hses, hE, get_apply, post, network, exchange_calm c h d stored lib' p x hc _ _ _ hM1, hh, if_true,
        modify_apply, raise_apply]
      exact ⟨_, _, rfl, Nat.le_succ_of_le hM1, .inr ⟨rfl, h3, rfl⟩⟩

theorem klap_heals (hc : x.CalmFrom h stored M N) (hN : 1 ≤ N) (hm : Matches cfg d stored) (hp : ∀ j a, JsonText.Proper (p.run j a).1) :
    Heals (klapTransport c h (network c h d stored lib' p x) cfg lib uuid time) p uuid (fun _ => False)
      (fun s => Good h stored s ∧ M ≤ s.world.count ∧ HasNext s) (fun s => M ≤ s.world.count) (Steady h stored M N) fun s => s.world.state := by
  refine ⟨?_, ?_, ?_, fun _ h => h.elim⟩
  · rintro w hw s ⟨hg, hM, hn⟩
    obtain ⟨res, s', h1, h2, h3⟩ := late_send c h d stored lib lib' p x cfg hc hN hm hp _ (proper_wire uuid (time s.world.count) w hw) s hg hM hn
    refine ⟨_, res, s', message_wire uuid (time s.world.count) w, h1, h2, ?_⟩
    rcases h3 with h3 | ⟨rfl, h4, -⟩
    · exact .inl h3
    · exact .inr ⟨_, rfl, .inl ⟨_, rfl⟩, h4⟩
  · intro w hw s hs
    obtain ⟨s', h1, -, h3⟩ := send_calm c h d stored lib lib' p x cfg hc hm hp _ (proper_wire uuid (time s.world.count) w hw) s (k := N - 1)
      (by omega) (by rw [Nat.sub_add_cancel hN]; exact hs)
    exact ⟨_, s', message_wire uuid (time s.world.count) w, h1, h3⟩
  · intro s hM
    exact ⟨(reset s).2, rfl, ⟨hM, fun h => nomatch h⟩, rfl⟩

/-- **C87, KLAP, setters after failures.** After any queries over KLAP, with whatever failures, once nothing goes wrong any more and unless
the session is out of sequence numbers: a query that sets something, with at least one retry, returns and has set it. -/
theorem C87_klap_recovers (hx : x.Fair) (hm : Matches cfg d stored) (hp : ∀ j a, JsonText.Proper (p.run j a).1) (m : String) (q : Json)
    (hq : JsonText.Proper q) {f : α → α} {v : Json} (hset : Sets p uuid (SmartSpec.requestFor m q) f v) (before : List (Smart.Query × Int))
    (hbefore : ∀ q ∈ before, ProperQuery q.1) (rc : Nat) (hrc : 1 ≤ rc) (batch : Nat) (w : World α) :
    let t := klapTransport c h (network c h d stored lib' p x) cfg lib uuid time
    let s := queries t before (fresh batch w)
    let out := Smart.query t (.dict [(m, q)]) rc s
    x.CalmFrom h stored s.world.world.count 1 → HasNext s.world →
    out.1 = .ok [(m, .value v)] ∧ out.2.world.world.state = f s.world.world.state := by
  intro t s out hc hn
  have F : Faithful t p uuid (Good h stored) fun s => s.world.state := by
    constructor
    · intro w hw s hg
      obtain ⟨res, s', h1, h2, h3⟩ := send_step c h d stored lib lib' p x cfg hx hm hp _ (proper_wire uuid (time s.world.count) w hw) s hg
      exact ⟨_, res, s', message_wire uuid _ w, h1, h2, h3⟩
    · intro s hk
      exact ⟨fun h => (nomatch h), rfl⟩
  have hg : Good h stored s.world := (F.queries_explains before (fresh batch w) hbefore fun h => nomatch h).1
  obtain ⟨rc, rfl⟩ : ∃ r, rc = r + 1 := ⟨rc - 1, by omega⟩
  rcases (klap_heals c h d stored lib lib' p x cfg uuid time hc (Nat.le_refl _) hm hp).setter m q hq hset rc s ⟨hg, Nat.le_refl _, hn⟩ with h1 | ⟨⟨_, h1, -⟩, -⟩
  · exact h1
  · exact h1.elim

/-- The session has run out of sequence numbers, and will not expire. -/
def Exhausted (s : St (World α)) : Prop :=
  s.handshakeDone = true ∧ (∃ t, s.expireAt = some t ∧ ∀ k, x.clock k < t) ∧ ∃ ses, s.session = some ses ∧ 2 ^ 31 - 1 ≤ ses.seq

/-- **C87, KLAP, when numbers run out.** When the sequence numbers of a session are used up, then until the session expires every query
that sets something, with however many retries, raises an error that is not one of the library's, and changes nothing; so does the next
one. -/
theorem C87_klap_exhausted (m : String) (q : Json) (rc : Nat) (s : Smart.St (St (World α))) (hs : Exhausted x s.world) :
    let out := Smart.query (klapTransport c h (network c h d stored lib' p x) cfg lib uuid time) (.dict [(m, q)]) rc s
    out.1 = .error (.other "struct.error") ∧ out.2.world.world.state = s.world.world.state ∧ Exhausted x out.2.world := by
  intro out
  obtain ⟨hd, ⟨t, ht, hclock⟩, ses, hses, hseq⟩ := hs
  have hpack : Crypto.packI32 (ses.seq + 1) = none := by
    unfold Crypto.packI32
    rw [if_neg (by omega)]
  have hsend : ∀ text, ∃ s', Klap.send c h (network c h d stored lib' p x) cfg fromUtf8 JsonText.loads text s.world =
      (.error (.other "struct.error"), s') ∧ s'.world.state = s.world.world.state ∧ Exhausted x s' := by
    intro text
    have hE : ses.encrypt c h text = (.error (.other "struct.error"), { ses with seq := ses.seq + 1 }) := by
      unfold Session.encrypt
      simp only [hpack]
    have hnot : ¬ t - x.clock s.world.world.count ≤ 0 := by have := hclock s.world.world.count; omega
    unfold Klap.send ensureHandshake needsHandshake sessionExpired sendRequest
    simp only [bind_apply, get_apply, hd, Bool.true_eq_false, if_false, ht, now, network, pure_apply, hnot, decide_false, Bool.false_eq_true,
      encryptRequest, hses]
    rw [hE]
    exact ⟨_, rfl, rfl, rfl, ⟨t, rfl, hclock⟩, { ses with seq := ses.seq + 1 }, rfl, by show 2 ^ 31 - 1 ≤ ses.seq + 1; omega⟩
  obtain ⟨s', h1, h2, h3⟩ := hsend (utf8 (JsonText.dumps lib (SmartText.wireJson uuid (time s.world.world.count) (.single (Smart.mkRequest m q)))))
  have hatt : Smart.executeQuery (klapTransport c h (network c h d stored lib' p x) cfg lib uuid time) (.dict [(m, q)]) s =
      (.error (.other "struct.error"), { s with world := s', wire := s.wire ++ [.single (Smart.mkRequest m q)] }) := by
    rw [Smart.executeQuery_one, bind_apply]
    have : Smart.executeSingle (klapTransport c h (network c h d stored lib' p x) cfg lib uuid time) m q s =
        (.error (.other "struct.error"), { s with world := s', wire := s.wire ++ [.single (Smart.mkRequest m q)] }) := by
      unfold Smart.executeSingle
      rw [bind_apply, Smart.send_apply]
      have : (klapTransport c h (network c h d stored lib' p x) cfg lib uuid time).send (.single (Smart.mkRequest m q)) s.world =
        (.error (.other "struct.error"), s') := h1
      rw [this]
    rw [this]
  have hout : out = (.error (.other "struct.error"), { s with world := s', wire := s.wire ++ [.single (Smart.mkRequest m q)] }) := by
    show Smart.query _ _ _ _ = _
    rw [Smart.query_unfold]
    unfold Retry.smartQuery
    have : (rc + 1 : Int).toNat = rc + 1 := by omega
    rw [this, List.range_succ_eq_map]
    unfold Retry.loop tryExcept
    simp only [hatt, raise_apply]
  rw [hout]
  exact ⟨rfl, h2, h3⟩

end

/-! ## Examples -/

/-- The device restarts before the second request, which gets lost. -/
def klapRough : Chance := { sampleChance with fate := fun n => if n = 6 then .lost (.error .connection) else .fine, restart := fun n => n = 6 }

theorem klapRough_fair : klapRough.Fair := by
  refine ⟨fun n => ?_, fun n => rfl⟩
  simp only [klapRough]
  split
  · exact fun b hb => nomatch hb
  · trivial

theorem klapRough_calm (m n : Nat) (hm : 7 ≤ m) (hn : n < 2 ^ 24) : klapRough.CalmFrom Crypto.toyHashes sampleHash m n := by
  refine ⟨fun k hk => ?_, fun k hk => ?_, fun _ _ => rfl, fun k _ v hv => (nomatch hv), (calmChance_calm m n hn).start⟩
  · show (if k = 6 then _ else _) = _
    rw [if_neg (by omega)]
  · show decide (k = 6) = false
    exact decide_eq_false (by omega)

abbrev klapRoughTransport : Smart.Transport (St (World Json)) :=
  klapTransport Crypto.toyCipher Crypto.toyHashes
    (network Crypto.toyCipher Crypto.toyHashes (deviceV2 Crypto.toyHashes) sampleHash .orjson setting klapRough) sampleConfig .python "u" fun n => n

abbrev klapRoughQueries : List (Smart.Query × Int) := [(.dict [("set", .num 3)], 0), (.dict [("set", .num 4)], 0)]

abbrev klapRoughState := queries klapRoughTransport klapRoughQueries (fresh 5 ⟨none, none, 0, .null, 0⟩)

theorem klapRough_count : klapRoughState.world.world.count = 7 ∧ klapRoughState.world.session.map (·.seq) = some 117901065 := by decide +kernel

example : (Smart.query klapRoughTransport (.dict [("set", .num 5)]) 1 klapRoughState).1 = .ok [("set", .value (.obj []))] ∧
    (Smart.query klapRoughTransport (.dict [("set", .num 5)]) 1 klapRoughState).2.world.world.state = .num 5 :=
  C87_klap_recovers Crypto.toyCipher Crypto.toyHashes _ sampleHash .python .orjson setting klapRough sampleConfig "u" (fun n => n)
    klapRough_fair sample_matches setting_proper "set" (.num 5) (by simp [JsonText.Proper]) (setting_sets (.num 5) rfl) klapRoughQueries
    (by
      intro q hq
      simp only [klapRoughQueries, List.mem_cons, List.not_mem_nil, or_false] at hq
      rcases hq with rfl | rfl <;> intro m q hq <;> simp only [List.mem_cons, Prod.mk.injEq, List.not_mem_nil, or_false] at hq <;>
        obtain ⟨-, rfl⟩ := hq <;> simp [JsonText.Proper])
    1 (by decide) 5 ⟨none, none, 0, .null, 0⟩
    (by rw [klapRough_count.1]; exact klapRough_calm 7 1 (Nat.le_refl _) (by decide))
    (by
      intro ses hs
      have := klapRough_count.2
      rw [hs] at this
      simp only [Option.map_some, Option.some.injEq] at this
      rw [this]
      decide)

/-- Without a retry that query fails: the device does not know the session any more. -/
theorem klapRough_refused : (Smart.query klapRoughTransport (.dict [("set", .num 5)]) 0 klapRoughState).1 = .error (.retryable none) := by
  decide +kernel

/-- A session at its last number. -/
def klapLast : Smart.St (St (World Json)) :=
  fresh 5 ⟨none, none, 0, .null, 0⟩ |> fun s => { s with world := { s.world with
    handshakeDone := true, expireAt := some 86400, session := some { Session.new Crypto.toyHashes [] [] [] with seq := 2 ^ 31 - 1 } } }

example := C87_klap_exhausted Crypto.toyCipher Crypto.toyHashes (deviceV2 Crypto.toyHashes) sampleHash .python .orjson setting
  { klapRough with clock := fun _ => 5 } sampleConfig "u" (fun n => n) "set" (.num 5) 3 klapLast
  ⟨rfl, ⟨86400, rfl, fun _ => by show (5 : Int) < 86400; decide⟩, _, rfl, by decide⟩

end Kasa.EndToEnd
