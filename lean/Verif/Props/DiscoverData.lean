import Verif.Spec.DiscoverData
import Verif.Props.Discover
/-!
# C99: encrypted discovery data
-/

namespace Kasa.DiscoverData
open Discover Config Factory DiscoverDataSpec

section
variable {R : Rsa} (c : BlockCipher) (E : Enc R)

theorem packField_length {n v : Nat} {b : Bytes} (h : packField n v = some b) : b.length = n := by
  unfold packField at h
  split at h
  · cases h; simp
  · cases h

theorem pack_length : ∀ (fs : List (Nat × Nat)) (b : Bytes), pack fs = some b → b.length = (fs.map Prod.fst).sum
  | [], b, h => by cases h; rfl
  | (n, v) :: fs, b, h => by
    unfold pack at h
    cases h1 : packField n v with
    | none => rw [h1] at h; cases h
    | some x =>
      cases h2 : pack fs with
      | none => rw [h1, h2] at h; cases h
      | some y =>
        rw [h1, h2] at h
        cases h
        rw [List.length_append, packField_length h1, pack_length fs y h2]
        rfl

theorem payload_of {crc32 : Bytes → Nat} {payload secret q : Bytes} (h : generateQuery crc32 payload secret = some q) : q.drop 16 = payload := by
  unfold generateQuery at h
  cases hh : pack [(1, 2), (1, 0), (2, 1), (2, payload.length), (1, 17), (1, 0), (4, beValue secret), (4, 0x5A6B7C8D)] with
  | none => rw [hh] at h; cases h
  | some header =>
    rw [hh] at h
    simp only [bind, Option.bind] at h
    cases hc : packField 4 (crc32 (header ++ payload)) with
    | none => rw [hc] at h; cases h
    | some crc =>
      rw [hc] at h
      simp only [pure, Option.some.injEq] at h
      have hl := pack_length _ _ hh
      have hcl := packField_length hc
      simp only [List.map_cons, List.map_nil, List.sum_cons, List.sum_nil] at hl
      rw [← h]
      unfold assignSlice
      have h12 : ((header ++ payload).take 12).length = 12 := by
        rw [List.length_take, List.length_append]
        omega
      rw [List.append_assoc, List.drop_append, List.drop_append, h12]
      simp only [hcl]
      rw [List.drop_of_length_le (by omega : ((header ++ payload).take 12).length ≤ 16), List.drop_of_length_le (by omega : crc.length ≤ 16 - 12)]
      simp only [List.nil_append, Nat.sub_self, List.drop_zero]
      have : (16 : Nat) = header.length := by omega
      rw [this, List.drop_left]

/-- What holds throughout a history: all probes sent carry the key of the key pair. -/
structure Inv (E : Enc R) (s : St R) : Prop where
  carries : ∀ q ∈ s.sent, ∃ k, s.pair = some k ∧ E.pubOf (q.drop 16) = some (R.pub k)

theorem inv_step {crc32 : Bytes → Nat} {s : St R} (h : Inv E s) (ev : Ev R) : Inv E (step E crc32 s ev) := by
  cases ev with
  | answer a => exact h
  | probe fresh secret =>
    unfold step
    simp only
    cases hp : s.pair with
    | none =>
      have hn : s.sent = [] := by
        cases hs : s.sent with
        | nil => rfl
        | cons q qs =>
          obtain ⟨k, hk, _⟩ := h.carries q (by rw [hs]; exact List.mem_cons_self)
          rw [hp] at hk; cases hk
      cases hq : generateQuery crc32 (E.payload (R.pub fresh)) secret with
      | none => exact ⟨fun q hm => by simp only [hn] at hm; cases hm⟩
      | some q =>
        refine ⟨fun q' hm => ⟨fresh, rfl, ?_⟩⟩
        simp only [hn, List.nil_append, List.mem_singleton] at hm
        rw [hm, payload_of hq, E.pubOf_payload]
    | some k =>
      cases hq : generateQuery crc32 (E.payload (R.pub k)) secret with
      | none =>
        refine ⟨fun q' hm => ?_⟩
        obtain ⟨k', hk', hc⟩ := h.carries q' hm
        rw [hp] at hk'; cases hk'
        exact ⟨k, rfl, hc⟩
      | some q =>
        refine ⟨fun q' hm => ⟨k, rfl, ?_⟩⟩
        rcases List.mem_append.1 hm with hm | hm
        · obtain ⟨k', hk', hc⟩ := h.carries q' hm
          rw [hp] at hk'; cases hk'
          exact hc
        · rw [List.mem_singleton.1 hm, payload_of hq, E.pubOf_payload]

theorem inv_run {crc32 : Bytes → Nat} : ∀ (evs : List (Ev R)) (s : St R), Inv E s → Inv E (run E crc32 s evs)
  | [], _, h => h
  | ev :: evs, _, h => inv_run evs _ (inv_step E h ev)

theorem sent_mono {crc32 : Bytes → Nat} : ∀ (evs : List (Ev R)) (s : St R) (q : Bytes), q ∈ s.sent → q ∈ (run E crc32 s evs).sent
  | [], _, _, h => h
  | ev :: evs, s, q, h => by
    refine sent_mono evs _ q ?_
    cases ev with
    | answer a => exact h
    | probe fresh secret =>
      unfold step
      simp only
      split
      · exact List.mem_append_left _ h
      · exact h

theorem decrypts {s : St R} (h : Inv E s) {q : Bytes} (hq : q ∈ s.sent) {j : Json} {i : Info} (hr : Replies c E q j i) :
    decryptData c E s.pair i = .ok j := by
  obtain ⟨p, random, key, iv, text, hp, hk, hiv, hj, rfl⟩ := hr
  obtain ⟨k, hs, hc⟩ := h.carries q hq
  rw [hc] at hp
  cases hp
  have hl : (key ++ iv).length = 32 := by rw [List.length_append, hk, hiv]
  have hm : Aes.Session.make (key ++ iv) = some ⟨key, iv⟩ := by
    unfold Aes.Session.make
    rw [if_pos hl, ← hk, List.take_left, List.drop_left]
  unfold decryptData
  simp only [E.unb64_b64, hs, R.opened_wrap k random (key ++ iv) (by omega), hm, Crypto.decrypt_encrypt c key iv _ hiv, bind, Except.bind]
  exact hj

/-- **C99, the data.** Whatever else happened in the process before and after a probe, the data in an answer to it are decrypted to what the device
encrypted. -/
theorem C99_decrypts (d : Deps) (crc32 : Bytes → Nat) (before after : List (Ev R)) (q : Bytes) (hq : q ∈ (run E crc32 {} before).sent) (a : Answer)
    (j : Json) (i : Info) (hi : a.info = some i) (hr : Replies c E q j i) (config : DeviceConfig) (dev : Dev) (data : Option Json)
    (h : instanceOf c E d (run E crc32 {} (before ++ after)).pair a config = .ok (dev, data)) : data = some j := by
  have hs : q ∈ (run E crc32 {} (before ++ after)).sent := by
    unfold run
    rw [List.foldl_append]
    exact sent_mono E after _ q hq
  have hd := decrypts c E (inv_run E (before ++ after) {} ⟨fun q hm => by cases hm⟩) hs hr
  have hsch : i.symSchm = "AES" := by
    obtain ⟨_, _, _, _, _, _, _, _, _, rfl⟩ := hr
    rfl
  have hdata : dataOf c E (run E crc32 {} (before ++ after)).pair a = .ok (some j) := by
    unfold dataOf
    simp only [hi, hsch, if_true, hd]
  unfold instanceOf at h
  rw [hdata] at h
  simp only [bind, Except.bind, pure, Except.pure] at h
  repeat' split at h
  all_goals first | (cases h; done) | (cases h; rfl)

/-- **C99, one key.** All probes of a process carry the same public key. -/
theorem C99_one_key (crc32 : Bytes → Nat) (evs : List (Ev R)) (q q' : Bytes) (hq : q ∈ (run E crc32 {} evs).sent) (hq' : q' ∈ (run E crc32 {} evs).sent) :
    ∃ p, E.pubOf (q.drop 16) = some p ∧ E.pubOf (q'.drop 16) = some p := by
  have hi := inv_run (crc32 := crc32) E evs {} ⟨fun q hm => by cases hm⟩
  obtain ⟨k, hk, h1⟩ := hi.carries q hq
  obtain ⟨k', hk', h2⟩ := hi.carries q' hq'
  rw [hk] at hk'
  cases hk'
  exact ⟨_, h1, h2⟩

/-- Nothing but an interruption comes out of the cryptography. -/
def Calm (c : BlockCipher) (E : Enc R) : Prop := ∀ pair i e, decryptData c E pair i = .error e → e.isException = true

/-- **C99, the device.** Which device is built from an answer, and how it is connected to, does not depend on the encrypted data, whether they can be
decrypted, or on any key pair: it is what C16 says. -/
theorem C99_same_device (hc : Calm c E) (d : Deps) (pair : Option R.Pair) (a : Answer) (config : DeviceConfig) (info : Json)
    (hp : parseResult d info = .ok a.result) :
    (instanceOf c E d pair a config).map Prod.fst = instanceNew d info config := by
  have hd : ∃ data, dataOf c E pair a = .ok data := by
    unfold dataOf
    cases a.info with
    | none => exact ⟨_, rfl⟩
    | some i =>
      simp only
      split
      · cases h : decryptData c E pair i with
        | ok j => exact ⟨_, rfl⟩
        | error e => exact ⟨_, if_pos (hc pair i e h)⟩
      · exact ⟨_, rfl⟩
  obtain ⟨data, hd⟩ := hd
  unfold instanceOf instanceNew
  rw [hd, hp]
  simp only [bind, Except.bind, pure, Except.pure]
  cases unsupportedParams d a.result with
  | error e => rfl
  | ok conn =>
    simp only
    cases classFromFamily a.result.deviceType conn.https false with
    | none => rfl
    | some cls =>
      simp only
      cases getProtocol { config with connectionType := conn } false with
      | none => rfl
      | some p => rfl

/-- **C99, otherwise.** Data that cannot be decrypted, and data under another scheme, leave the answer as it was. -/
theorem C99_otherwise (d : Deps) (pair : Option R.Pair) (a : Answer) (config : DeviceConfig) (dev : Dev) (data : Option Json)
    (hn : ∀ i, a.info = some i → i.symSchm = "AES" → ∃ e, decryptData c E pair i = .error e)
    (h : instanceOf c E d pair a config = .ok (dev, data)) : data = a.claimed := by
  unfold instanceOf at h
  cases hd : dataOf c E pair a with
  | error e => rw [hd] at h; cases h
  | ok x =>
    have hx : x = a.claimed := by
      unfold dataOf at hd
      cases hi : a.info with
      | none => rw [hi] at hd; cases hd; rfl
      | some i =>
        rw [hi] at hd
        simp only at hd
        split at hd
        · rename_i hs
          obtain ⟨e, he⟩ := hn i hi hs
          rw [he] at hd
          simp only at hd
          split at hd
          · cases hd; rfl
          · cases hd
        · cases hd; rfl
    rw [hd, hx] at h
    simp only [bind, Except.bind, pure, Except.pure] at h
    repeat' split at h
    all_goals first | (cases h; done) | (cases h; rfl)

end

/-! ## The hypotheses can be met -/

/-- A key is a byte, and sealing adds it in front. -/
def sampleRsa : Rsa where
  Pair := UInt8
  Pub := UInt8
  pub k := k
  wrap p _ m := p :: m
  opened k b := match b with
    | x :: m => if x = k then .ok m else .error (.other "ValueError")
    | [] => .error (.other "ValueError")
  opened_wrap k _ m _ := by simp

/-- Base64 is any encoding of bytes as text. -/
def sampleEnc : Enc sampleRsa where
  payload p := [p]
  pubOf b := b.head?
  b64 b := String.ofList (b.map fun x => Char.ofNat x.toNat)
  unb64 s := .ok (s.toList.map fun ch => UInt8.ofNat ch.toNat)
  decode b := .ok (String.ofList (b.map fun x => Char.ofNat x.toNat))
  loads s := if s = "1" then .ok (.num 1) else .error (.other "ValueError")
  pubOf_payload _ := rfl
  unb64_b64 b := by
    rw [String.toList_ofList, List.map_map]
    congr 1
    refine (List.map_congr_left fun x _ => ?_).trans (List.map_id b)
    have hx : x.toNat.isValidChar := .inl (by have := x.toNat_lt; omega)
    simp only [Function.comp, Char.ofNat, hx, dif_pos, id]
    apply UInt8.toNat_inj.mp
    rw [UInt8.toNat_ofNat']
    have : (Char.ofNatAux x.toNat hx).toNat = x.toNat := rfl
    rw [this]
    exact Nat.mod_eq_of_lt x.toNat_lt

def sampleSecret : Bytes := [0, 0, 0, 1]

/-- Two probes; the second would have got another key pair. -/
def sampleHistory : List (Ev sampleRsa) := [.probe (7 : UInt8) sampleSecret, .probe (9 : UInt8) sampleSecret]

def sampleKey : Bytes := List.replicate 16 1

example (c : BlockCipher) : ∃ q, q ∈ (run sampleEnc (fun _ => 0) {} (sampleHistory.take 1)).sent ∧
    Replies c sampleEnc q (.num 1) ⟨"AES", sampleEnc.b64 ((7 : UInt8) :: (sampleKey ++ sampleKey)), sampleEnc.b64 (Crypto.encrypt c sampleKey sampleKey [49])⟩ := by
  refine ⟨_, List.mem_singleton.2 rfl, (7 : UInt8), [], sampleKey, sampleKey, [49], ?_, rfl, rfl, ?_, rfl⟩
  · rfl
  · decide +kernel

example (c : BlockCipher) : decryptData c sampleEnc (run sampleEnc (fun _ => 0) {} sampleHistory).pair
    ⟨"AES", sampleEnc.b64 ((7 : UInt8) :: (sampleKey ++ sampleKey)), sampleEnc.b64 (Crypto.encrypt c sampleKey sampleKey [49])⟩ = .ok (.num 1) := by
  refine decrypts c sampleEnc (q := ((run sampleEnc (fun _ => 0) {} (sampleHistory.take 1)).sent.headD [])) (inv_run sampleEnc _ {} ⟨fun q hm => by cases hm⟩) ?_ ?_
  · decide +kernel
  · refine ⟨(7 : UInt8), [], sampleKey, sampleKey, [49], ?_, rfl, rfl, ?_, rfl⟩
    · rfl
    · decide +kernel

example : (run sampleEnc (fun _ => 0) {} sampleHistory).sent.length = 2 := by decide +kernel

end Kasa.DiscoverData
