import Verif.Model.Discover
import Verif.Spec.Discover
import Verif.Props.SysInfo
import Verif.Props.Config
import Verif.Props.Factory
/-!
# C16, C17, C18, C52: discovery
-/

namespace Kasa.Discover

open Config Factory Ops DiscoverSpec

/-! ## C18 -/

theorem packField_one {n : Nat} (h : n < 256) : packField 1 n = some [UInt8.ofNat n] := by
  unfold packField
  rw [if_pos (by simpa using h)]
  simp [List.range, List.range.loop]

theorem packField_two {n : Nat} (h : n < 65536) : packField 2 n = some [UInt8.ofNat (n / 256), UInt8.ofNat n] := by
  unfold packField
  rw [if_pos (by simpa using h)]
  simp [List.range, List.range.loop]

theorem packField_four {n : Nat} (h : n < 4294967296) : packField 4 n = some (be32 n) := by
  unfold packField be32
  rw [if_pos (by simpa using h)]
  simp [List.range, List.range.loop]

theorem be32_beValue {a b c d : UInt8} : be32 (beValue [a, b, c, d]) = [a, b, c, d] := by
  unfold be32 beValue
  have ha := a.toNat_lt
  have hb := b.toNat_lt
  have hc := c.toNat_lt
  have hd := d.toNat_lt
  simp only [List.foldl_cons, List.foldl_nil]
  have e1 : ∀ (x : UInt8) (n : Nat), n % 256 = x.toNat → UInt8.ofNat n = x := by
    intro x n h
    apply UInt8.toNat_inj.mp
    rw [UInt8.toNat_ofNat']
    exact h
  rw [e1 a _ (by omega), e1 b _ (by omega), e1 c _ (by omega), e1 d _ (by omega)]

/-- C18: for every payload that fits and every serial, the probe is well formed. -/
theorem C18_probe (crc32 : Bytes → Nat) (hcrc : ∀ b, crc32 b < 2 ^ 32) (payload secret : Bytes)
    (hs : secret.length = 4) (hp : payload.length < 65536) :
    ∃ q, generateQuery crc32 payload secret = some q ∧ WellFormed crc32 payload secret q := by
  obtain ⟨s3, s2, s1, s0, rfl⟩ : ∃ a b c d, secret = [a, b, c, d] := by
    match secret, hs with
    | [a, b, c, d], _ => exact ⟨a, b, c, d, rfl⟩
  have hv : beValue [s3, s2, s1, s0] < 4294967296 := by
    have ha := s3.toNat_lt
    have hb := s2.toNat_lt
    have hc := s1.toNat_lt
    have hd := s0.toNat_lt
    simp only [beValue, List.foldl_cons, List.foldl_nil]
    omega
  have hc : ∀ b, packField 4 (crc32 b) = some (be32 (crc32 b)) := fun b => packField_four (hcrc b)
  have hh : pack [(1, 2), (1, 0), (2, 1), (2, payload.length), (1, 17), (1, 0), (4, beValue [s3, s2, s1, s0]),
      (4, 0x5A6B7C8D)] = some [2, 0, 0, 1, UInt8.ofNat (payload.length / 256), UInt8.ofNat payload.length, 17, 0,
        s3, s2, s1, s0, 0x5A, 0x6B, 0x7C, 0x8D] := by
    simp only [pack, packField_one (n := 2) (by omega), packField_one (n := 0) (by omega),
      packField_two (n := 1) (by omega), packField_two hp, packField_one (n := 17) (by omega), packField_four hv,
      packField_four (n := 0x5A6B7C8D) (by omega), be32_beValue, bind, Option.bind, pure]
    rfl
  unfold generateQuery
  simp only [hh, bind, Option.bind, hc, pure]
  refine ⟨_, rfl, ⟨UInt8.ofNat (payload.length / 256), UInt8.ofNat payload.length, s3, s2, s1, s0, _, _, _, _, rfl, ?_, rfl, ?_⟩⟩
  · unfold word16
    simp only [UInt8.toNat_ofNat']
    omega
  · have key : ∀ n, n < 2 ^ 32 →
        word32 (UInt8.ofNat (n / 2 ^ 24)) (UInt8.ofNat (n / 2 ^ 16)) (UInt8.ofNat (n / 2 ^ 8)) (UInt8.ofNat n) = n := by
      intro n hn
      unfold word32
      simp only [UInt8.toNat_ofNat']
      omega
    exact key _ (hcrc _)

/-- C18: a payload that is too long is refused rather than sent with a wrong length. -/
theorem C18_too_long (crc32 : Bytes → Nat) (payload secret : Bytes) (hp : 65536 ≤ payload.length) :
    generateQuery crc32 payload secret = none := by
  have : packField 2 payload.length = none := by
    unfold packField
    rw [if_neg (by simp only [Nat.reducePow]; omega)]
  unfold generateQuery
  simp only [pack, this, bind, Option.bind, packField_one (n := 2) (by omega), packField_one (n := 0) (by omega),
    packField_two (n := 1) (by omega)]

/-- C18: the payload of an answer is read after dropping its sixteen header bytes. -/
theorem C18_answer (d : Deps) (header body : Bytes) (j : Json) (hh : header.length = 16) (hj : d.loads body = .ok j) :
    jsonNew d (header ++ body) = .ok j := by
  unfold jsonNew
  rw [← hh, List.drop_left, hj]
  rfl

/-! ## C16 -/

/-- The first datagram received from a host. -/
def first (ip : String) (dgs : List Datagram) : Option Datagram := dgs.find? (fun dg => decide (dg.ip = ip))

section
variable (d : Deps) (o : Options)

/-- The state is determined, host by host, by the first datagrams. -/
structure Inv (s : St) (dgs : List Datagram) : Prop where
  seen : ∀ ip, ip ∈ s.seen ↔ (first ip dgs).isSome
  discovered : ∀ ip, s.discovered.get? ip =
    (first ip dgs).bind fun dg => match handle d o dg with | some (.ok dev) => some dev | _ => none
  unsupported : ∀ ip, s.unsupported.get? ip =
    (first ip dgs).bind fun dg => match handle d o dg with | some (.error .unsupported) => some .unsupported | _ => none
  invalid : ∀ ip, s.invalid.get? ip =
    (first ip dgs).bind fun dg => match handle d o dg with
      | some (.error e) => if e.isKasa ∧ e ≠ .unsupported then some e else none
      | _ => none
  wf : s.discovered.WF
  found : s.found = if o.onDiscovered then s.discovered.map Prod.snd else []
  reported : s.reported = if o.onUnsupported then s.unsupported.keys else []
  target : s.cancelled = s.targetDiscovered
  stops : ∀ dg, first o.target dgs = some dg → (∀ r, handle d o dg = some r → (∃ dev, r = .ok dev) ∨ ∃ e, r = .error e ∧ e.isKasa) →
    handle d o dg ≠ none → s.cancelled = true
  only : s.cancelled = true → (first o.target dgs).isSome

theorem first_append (ip : String) (dgs : List Datagram) (dg : Datagram) :
    first ip (dgs ++ [dg]) = match first ip dgs with | some x => some x | none => if dg.ip = ip then some dg else none := by
  unfold first
  rw [List.find?_append]
  cases List.find? _ dgs with
  | some x => rfl
  | none =>
    by_cases h : dg.ip = ip <;> simp [h]


theorem get?_none_of_not_seen {s : St} {dgs : List Datagram} (h : Inv d o s dgs) {ip : String} (hn : first ip dgs = none) :
    s.discovered.get? ip = none ∧ s.unsupported.get? ip = none ∧ s.invalid.get? ip = none := by
  refine ⟨?_, ?_, ?_⟩
  · rw [h.discovered, hn]; rfl
  · rw [h.unsupported, hn]; rfl
  · rw [h.invalid, hn]; rfl

/-- Setting a new key appends it. -/
theorem set_new {α β : Type} [DecidableEq α] {m : Dict α β} {k : α} {v : β} (h : m.get? k = none) :
    Dict.set m k v = m ++ [(k, v)] := by
  induction m with
  | nil => rfl
  | cons x m ih =>
    obtain ⟨a, b⟩ := x
    unfold Dict.get? at h
    by_cases hk : a = k
    · rw [if_pos hk] at h; cases h
    · rw [if_neg hk] at h
      unfold Dict.set
      rw [if_neg hk, ih h]
      rfl

theorem event_fields (s : St) : (discoveredEvent o s).seen = s.seen ∧ (discoveredEvent o s).discovered = s.discovered ∧
    (discoveredEvent o s).unsupported = s.unsupported ∧ (discoveredEvent o s).invalid = s.invalid ∧
    (discoveredEvent o s).found = s.found ∧ (discoveredEvent o s).reported = s.reported ∧
    (s.cancelled = s.targetDiscovered → (discoveredEvent o s).cancelled = (discoveredEvent o s).targetDiscovered) ∧
    (o.target ∈ s.seen → (discoveredEvent o s).cancelled = true) ∧
    (o.target ∉ s.seen → (discoveredEvent o s).cancelled = s.cancelled) := by
  unfold discoveredEvent
  by_cases h : o.target ∈ s.seen
  · rw [if_pos h]; simp [h]
  · rw [if_neg h]; simp [h]

/-- One datagram. -/
theorem inv_step {s : St} {dgs : List Datagram} (dg : Datagram) (h : Inv d o s dgs) :
    Inv d o (received d o s dg) (dgs ++ [dg]) := by
  unfold received
  by_cases hs : dg.ip ∈ s.seen
  · rw [if_pos hs]
    have same : ∀ ip, first ip (dgs ++ [dg]) = first ip dgs := by
      intro ip
      rw [first_append]
      cases hf : first ip dgs with
      | some x => rfl
      | none =>
        have : dg.ip ≠ ip := by
          rintro rfl
          have := (h.seen dg.ip).mp hs
          rw [hf] at this
          cases this
        simp [this]
    exact ⟨fun ip => by rw [same]; exact h.seen ip, fun ip => by rw [same]; exact h.discovered ip,
      fun ip => by rw [same]; exact h.unsupported ip, fun ip => by rw [same]; exact h.invalid ip, h.wf, h.found, h.reported,
      h.target, fun dg' h1 => by rw [same] at h1; exact h.stops dg' h1, fun hc => by rw [same]; exact h.only hc⟩
  · rw [if_neg hs]
    have hnone : first dg.ip dgs = none := by
      cases hf : first dg.ip dgs with
      | none => rfl
      | some x => exact absurd ((h.seen dg.ip).mpr (by rw [hf]; rfl)) hs
    obtain ⟨nd, nu, ni⟩ := get?_none_of_not_seen d o h hnone
    have here : first dg.ip (dgs ++ [dg]) = some dg := by rw [first_append, hnone]; simp
    have other : ∀ ip, dg.ip ≠ ip → first ip (dgs ++ [dg]) = first ip dgs := by
      intro ip hne
      rw [first_append]
      cases hf : first ip dgs with
      | some x => rfl
      | none => simp [hne]
    have hseen : ∀ ip, ip ∈ s.seen ++ [dg.ip] ↔ (first ip (dgs ++ [dg])).isSome := by
      intro ip
      by_cases he : dg.ip = ip
      · rw [← he, here]; simp
      · rw [other ip he, ← h.seen ip]
        simp only [List.mem_append, List.mem_singleton]
        constructor
        · rintro (h1 | h1)
          · exact h1
          · exact absurd h1.symm he
        · exact Or.inl
    have hstop : ∀ {c : Bool}, (o.target ∈ s.seen ++ [dg.ip] → c = true) →
        ∀ dg', first o.target (dgs ++ [dg]) = some dg' →
        (∀ r, handle d o dg' = some r → (∃ dev, r = .ok dev) ∨ ∃ e, r = .error e ∧ e.isKasa) →
        handle d o dg' ≠ none → c = true := by
      intro c hc dg' h1 _ _
      exact hc ((hseen o.target).mpr (by rw [h1]; rfl))
    have honly : ∀ {c : Bool}, (o.target ∉ s.seen ++ [dg.ip] → c = s.cancelled) → c = true →
        (first o.target (dgs ++ [dg])).isSome := by
      intro c hc hct
      by_cases ht : o.target ∈ s.seen ++ [dg.ip]
      · exact (hseen _).mp ht
      · have hcs := hc ht
        rw [hct] at hcs
        have := h.only hcs.symm
        rw [first_append]
        cases hf : first o.target dgs with
        | some x => rfl
        | none => rw [hf] at this; cases this
    -- a host that stays unrecorded
    have quiet : ∀ esc, (∀ r, handle d o dg = some r → ∃ e, r = .error e ∧ e.isKasa = false) →
        Inv d o { s with seen := s.seen ++ [dg.ip], escaped := esc } (dgs ++ [dg]) := by
      intro esc hq
      have hval : ∀ {β : Type} (f : Datagram → Option β), f dg = none → ∀ ip (m : Option β), m = (first ip dgs).bind f →
          m = (first ip (dgs ++ [dg])).bind f := by
        intro β f hf ip m hm
        by_cases he : dg.ip = ip
        · subst he; rw [here, hm, hnone]; simp [hf]
        · rw [other ip he]; exact hm
      refine ⟨hseen, fun ip => hval _ ?_ ip _ (h.discovered ip), fun ip => hval _ ?_ ip _ (h.unsupported ip),
        fun ip => hval _ ?_ ip _ (h.invalid ip), h.wf, h.found, h.reported, h.target, ?_, ?_⟩
      · cases hh : handle d o dg with
        | none => rfl
        | some r => obtain ⟨e, rfl, he⟩ := hq r hh; rfl
      · cases hh : handle d o dg with
        | none => rfl
        | some r => obtain ⟨e, rfl, he⟩ := hq r hh; cases e <;> first | rfl | cases he
      · cases hh : handle d o dg with
        | none => rfl
        | some r => obtain ⟨e, rfl, he⟩ := hq r hh; simp [he]
      · intro dg' h1 h2 h3
        by_cases he : dg.ip = o.target
        · rw [← he, here] at h1
          cases h1
          cases hh : handle d o dg with
          | none => exact absurd hh h3
          | some r =>
            obtain ⟨e, rfl, hk⟩ := hq r hh
            rcases h2 _ hh with ⟨dev, h4⟩ | ⟨e', h4, h5⟩
            · cases h4
            · cases h4; rw [hk] at h5; cases h5
        · rw [other _ he] at h1
          exact h.stops dg' h1 h2 h3
      · exact honly (fun _ => rfl)
    cases hh : handle d o dg with
    | none =>
      exact quiet s.escaped (by intro r hr; rw [hh] at hr; cases hr)
    | some r =>
      cases r with
      | ok dev =>
        unfold record
        simp only
        obtain ⟨e1, e2, e3, e4, e5, e6, e7, e8, e9⟩ := event_fields o { s with
          seen := s.seen ++ [dg.ip], discovered := s.discovered.set dg.ip dev,
          found := if o.onDiscovered then s.found ++ [dev] else s.found }
        refine ⟨fun ip => by rw [e1]; exact hseen ip, fun ip => ?_, fun ip => ?_, fun ip => ?_, ?_, ?_, ?_, e7 h.target,
          hstop e8, honly e9⟩
        · rw [e2, Dict.get?_set]
          by_cases he : dg.ip = ip
          · subst he; simp [here, hh]
          · rw [if_neg he, other ip he]; exact h.discovered ip
        · rw [e3]
          by_cases he : dg.ip = ip
          · subst he; simp [here, hh, nu]
          · rw [other ip he]; exact h.unsupported ip
        · rw [e4]
          by_cases he : dg.ip = ip
          · subst he; simp [here, hh, ni]
          · rw [other ip he]; exact h.invalid ip
        · rw [e2]; exact Dict.WF_set h.wf _ _
        · rw [e5, e2]
          simp only
          rw [set_new nd, h.found]
          cases o.onDiscovered <;> simp
        · rw [e6, e3]; exact h.reported
      | error e =>
        by_cases hu : e = .unsupported
        · subst hu
          unfold record
          simp only
          rw [if_pos trivial]
          obtain ⟨e1, e2, e3, e4, e5, e6, e7, e8, e9⟩ := event_fields o { s with
            seen := s.seen ++ [dg.ip], unsupported := s.unsupported.set dg.ip .unsupported,
            reported := if o.onUnsupported then s.reported ++ [dg.ip] else s.reported }
          refine ⟨fun ip => by rw [e1]; exact hseen ip, fun ip => ?_, fun ip => ?_, fun ip => ?_, ?_, ?_, ?_, e7 h.target,
            hstop e8, honly e9⟩
          · rw [e2]
            by_cases he : dg.ip = ip
            · subst he; simp [here, hh, nd]
            · rw [other ip he]; exact h.discovered ip
          · rw [e3, Dict.get?_set]
            by_cases he : dg.ip = ip
            · subst he; simp [here, hh]
            · rw [if_neg he, other ip he]; exact h.unsupported ip
          · rw [e4]
            by_cases he : dg.ip = ip
            · subst he; simp [here, hh, ni]
            · rw [other ip he]; exact h.invalid ip
          · rw [e2]; exact h.wf
          · rw [e5, e2]; exact h.found
          · rw [e6, e3]
            simp only
            rw [set_new nu, h.reported]
            cases o.onUnsupported <;> simp [Dict.keys]
        · by_cases hk : e.isKasa = true
          · unfold record
            simp only
            rw [if_neg hu, if_pos hk]
            obtain ⟨e1, e2, e3, e4, e5, e6, e7, e8, e9⟩ := event_fields o { s with
              seen := s.seen ++ [dg.ip], invalid := s.invalid.set dg.ip e }
            refine ⟨fun ip => by rw [e1]; exact hseen ip, fun ip => ?_, fun ip => ?_, fun ip => ?_, ?_, ?_, ?_, e7 h.target,
              hstop e8, honly e9⟩
            · rw [e2]
              by_cases he : dg.ip = ip
              · subst he; simp [here, hh, nd]
              · rw [other ip he]; exact h.discovered ip
            · rw [e3]
              by_cases he : dg.ip = ip
              · subst he
                rw [here]
                simp only [nu, Option.bind_some, hh]
                cases e <;> first | exact absurd rfl hu | rfl
              · rw [other ip he]; exact h.unsupported ip
            · rw [e4, Dict.get?_set]
              by_cases he : dg.ip = ip
              · subst he; simp [here, hh, hk, hu]
              · rw [if_neg he, other ip he]; exact h.invalid ip
            · rw [e2]; exact h.wf
            · rw [e5, e2]; exact h.found
            · rw [e6, e3]; exact h.reported
          · have hk' : e.isKasa = false := by simpa using hk
            unfold record
            simp only
            rw [if_neg hu, if_neg hk]
            exact quiet (s.escaped ++ [(dg.ip, e)]) (by intro r hr; rw [hh] at hr; cases hr; exact ⟨e, rfl, hk'⟩)

theorem inv_init : Inv d o St.init [] := by
  refine ⟨?_, ?_, ?_, ?_, ?_, ?_, ?_, rfl, ?_, ?_⟩ <;> simp [St.init, first, Dict.get?]

theorem inv_all {s : St} {dgs : List Datagram} (h : Inv d o s dgs) (more : List Datagram) :
    Inv d o (receiveAll d o s more) (dgs ++ more) := by
  induction more generalizing s dgs with
  | nil => simpa [receiveAll] using h
  | cons x more ih =>
    have := ih (inv_step d o x h)
    rw [List.append_assoc] at this
    exact this

/-- The state after receiving these datagrams. -/
def after (dgs : List Datagram) : St := receiveAll d o St.init dgs

theorem inv_after (dgs : List Datagram) : Inv d o (after d o dgs) dgs := by
  have := inv_all d o (inv_init d o) dgs
  rwa [List.nil_append] at this

/-- C16: whatever arrives, what discovery says about a host is decided by the first datagram from that host, and by it
alone. -/
theorem C16_first_datagram (dgs : List Datagram) (ip : String) (dg : Datagram) (hf : first ip dgs = some dg) :
    (∀ dev, handle d o dg = some (.ok dev) → (after d o dgs).discovered.get? ip = some dev ∧
      (after d o dgs).unsupported.get? ip = none ∧ (after d o dgs).invalid.get? ip = none) ∧
    (handle d o dg = some (.error .unsupported) → (after d o dgs).unsupported.get? ip = some .unsupported ∧
      (after d o dgs).discovered.get? ip = none ∧ (after d o dgs).invalid.get? ip = none) ∧
    (∀ e, handle d o dg = some (.error e) → e.isKasa = true → e ≠ .unsupported →
      (after d o dgs).invalid.get? ip = some e ∧
      (after d o dgs).discovered.get? ip = none ∧ (after d o dgs).unsupported.get? ip = none) ∧
    ((∀ r, handle d o dg = some r → ∃ e, r = .error e ∧ e.isKasa = false) →
      (after d o dgs).discovered.get? ip = none ∧ (after d o dgs).unsupported.get? ip = none ∧
      (after d o dgs).invalid.get? ip = none) := by
  have h := inv_after d o dgs
  rw [h.discovered, h.unsupported, h.invalid, hf]
  refine ⟨?_, ?_, ?_, ?_⟩
  · intro dev hh; simp [hh]
  · intro hh; simp [hh]
  · intro e hh hk hu
    simp only [Option.bind_some, hh, hk, hu]
    refine ⟨by simp [hu], trivial, ?_⟩
    cases e <;> first | rfl | exact absurd rfl hu
  · intro hh
    cases hr : handle d o dg with
    | none => simp [hr]
    | some r =>
      obtain ⟨e, rfl, he⟩ := hh r hr
      simp only [Option.bind_some, hr, he]
      refine ⟨trivial, ?_, by simp⟩
      cases e <;> first | rfl | (exact absurd he (by decide))

/-- C16: a datagram is looked at exactly if it comes from a port on which devices answer. -/
theorem C16_ports (dg : Datagram) : handle d o dg ≠ none ↔ DiscoverSpec.ListensTo o.port dg.port := by
  have hd : handle d o dg ≠ none ↔ dg.port = o.discoveryPort ∨ dg.port = 20002 := by
    unfold handle
    simp only
    split
    · simp [*]
    · split
      · simp_all [discoveryPort2]
      · simp_all [discoveryPort2]
  rw [hd]
  unfold Options.discoveryPort
  constructor
  · rintro (h | h)
    · rw [h]
      cases hp : o.port with
      | none => exact .legacy
      | some p =>
        simp only
        split
        · exact .asked p ‹_›
        · rename_i hz
          have : p = 0 := by simpa using hz
          subst this
          exact .zero
    · rw [h]
      exact .new _
  · intro h
    generalize o.port = a, dg.port = b at h
    cases h with
    | asked _ h => simp [h]
    | legacy => simp
    | zero => simp
    | new => simp

/-- And then the host is not counted as one that answered. -/
theorem C16_other_ports (dg : Datagram) (h : ¬ DiscoverSpec.ListensTo o.port dg.port) :
    (after d o [dg]).discovered = [] ∧ (after d o [dg]).unsupported = [] ∧ (after d o [dg]).invalid = [] ∧ (after d o [dg]).found = [] := by
  have : handle d o dg = none := Classical.byContradiction fun hn => h ((C16_ports d o dg).mp hn)
  simp [after, receiveAll, received, this, St.init]

/-- C16: no host is both discovered, unsupported or invalid, and a host nothing came from is none of them. -/
theorem C16_disjoint (dgs : List Datagram) (ip : String) :
    ((after d o dgs).discovered.get? ip ≠ none → (after d o dgs).unsupported.get? ip = none ∧ (after d o dgs).invalid.get? ip = none) ∧
    ((after d o dgs).unsupported.get? ip ≠ none → (after d o dgs).invalid.get? ip = none) ∧
    (first ip dgs = none → (after d o dgs).discovered.get? ip = none ∧ (after d o dgs).unsupported.get? ip = none ∧
      (after d o dgs).invalid.get? ip = none) := by
  cases hf : first ip dgs with
  | none =>
    obtain ⟨h1, h2, h3⟩ := get?_none_of_not_seen d o (inv_after d o dgs) hf
    simp [h1, h2, h3]
  | some dg =>
    obtain ⟨h1, h2, h3, h4⟩ := C16_first_datagram d o dgs ip dg hf
    cases hh : handle d o dg with
    | none =>
      have := h4 (by intro r hr; rw [hh] at hr; cases hr)
      simp [this]
    | some r =>
      cases r with
      | ok dev => have := h1 dev hh; simp [this]
      | error e =>
        by_cases hu : e = .unsupported
        · subst hu; have := h2 hh; simp [this]
        · by_cases hk : e.isKasa = true
          · have := h3 e hh hk hu; simp [this]
          · have := h4 (by intro r hr; rw [hh] at hr; cases hr; exact ⟨e, rfl, by simpa using hk⟩)
            simp [this]

theorem handle_port {dg : Datagram} (hport : dg.port = o.discoveryPort ∨ dg.port = discoveryPort2) :
    handle d o dg ≠ none := by
  unfold handle
  by_cases hx : dg.port = o.discoveryPort
  · simp [hx]
  · rcases hport with h | h
    · exact absurd h hx
    · rw [if_neg hx, if_pos h]; exact Option.some_ne_none _

/-- C16: a host whose first datagram came from a discovery port, and made the library raise nothing but its own
exceptions, ends up in exactly one of the three.  Partial: datagrams can make it raise others (see below). -/
theorem C16_one_of_three_partial (dgs : List Datagram) (ip : String) (dg : Datagram) (hf : first ip dgs = some dg)
    (hport : dg.port = o.discoveryPort ∨ dg.port = discoveryPort2)
    (hown : ∀ e, handle d o dg = some (.error e) → e.isKasa = true) :
    let s := after d o dgs
    (s.discovered.get? ip ≠ none ∧ s.unsupported.get? ip = none ∧ s.invalid.get? ip = none) ∨
    (s.discovered.get? ip = none ∧ s.unsupported.get? ip ≠ none ∧ s.invalid.get? ip = none) ∨
    (s.discovered.get? ip = none ∧ s.unsupported.get? ip = none ∧ s.invalid.get? ip ≠ none) := by
  obtain ⟨h1, h2, h3, h4⟩ := C16_first_datagram d o dgs ip dg hf
  cases hh : handle d o dg with
  | none =>
    exact absurd hh (handle_port d o hport)
  | some r =>
    cases r with
    | ok dev => have := h1 dev hh; simp [this]
    | error e =>
      by_cases hu : e = .unsupported
      · subst hu; have := h2 hh; simp [this]
      · have := h3 e hh (hown e hh) hu; simp [this]

/-- C16: the callback for found devices runs exactly once for every device discovered, in order, and for nothing else. -/
theorem C16_callback_once (dgs : List Datagram) (hcb : o.onDiscovered = true) :
    (after d o dgs).found = (after d o dgs).discovered.map Prod.snd ∧ (after d o dgs).discovered.keys.Nodup := by
  have h := inv_after d o dgs
  refine ⟨?_, h.wf⟩
  rw [h.found, hcb]
  rfl

/-- C16: the callback for unsupported devices runs exactly once for every unsupported host. -/
theorem C16_unsupported_once (dgs : List Datagram) (hcb : o.onUnsupported = true) :
    (after d o dgs).reported = (after d o dgs).unsupported.keys := by
  have h := inv_after d o dgs
  rw [h.reported, hcb]
  rfl

end

/-- The reading of new-style answers raises nothing but library exceptions, as long as the listed encryption types are
numbers and the caller's callback does not fail. -/
theorem C16_new_style (d : Deps) (o : Options) (dg : Datagram) (hport : dg.port = discoveryPort2)
    (hne : o.discoveryPort ≠ discoveryPort2) (hraw : o.raw dg = .ok ())
    (hint : ∀ j r xs, d.parse j = .ok r → r.encryptType = some xs → ∀ x ∈ xs, d.toInt x ≠ none)
    (hloads : ∀ b e, d.loads b = .error e → e.isException = true)
    (hparse : ∀ j e, d.parse j = .error e → e.isException = true) :
    ∀ e, handle d o dg = some (.error e) → e.isKasa = true := by
  intro e hh
  unfold handle at hh
  have hx : ¬ dg.port = o.discoveryPort := by rw [hport]; exact fun h => hne h.symm
  rw [if_neg hx, if_pos hport] at hh
  simp only [Option.some.injEq, bind, Except.bind, hraw] at hh
  unfold jsonNew at hh
  cases hl : d.loads (dg.data.drop 16) with
  | error e' =>
    rw [hl] at hh
    simp only [asKasa, hloads _ _ hl, if_true, Except.error.injEq] at hh
    rw [← hh]; rfl
  | ok info =>
    rw [hl] at hh
    simp only [asKasa] at hh
    unfold instanceNew at hh
    simp only [bind, Except.bind] at hh
    cases hp : parseResult d info with
    | error e' =>
      rw [hp] at hh
      simp only [Except.error.injEq] at hh
      subst hh
      unfold parseResult at hp
      simp only [bind, Except.bind] at hp
      cases hi : item info "result" with
      | error e2 =>
        rw [hi] at hp
        simp only [Except.error.injEq] at hp
        have : e2.isException = true := by
          unfold item at hi
          cases info <;> simp only at hi
          all_goals first
            | (simp only [Except.error.injEq] at hi; rw [← hi]; rfl)
            | (split at hi <;> first | (simp only [Except.error.injEq] at hi; rw [← hi]; rfl) | cases hi)
        rw [this] at hp
        rw [← hp]; rfl
      | ok j =>
        rw [hi] at hp
        simp only at hp
        cases hq : d.parse j with
        | ok r => rw [hq] at hp; cases hp
        | error e2 =>
          rw [hq] at hp
          simp only [Except.error.injEq, hparse _ _ hq, if_true] at hp
          rw [← hp]; rfl
    | ok r =>
      rw [hp] at hh
      simp only at hh
      have hr : ∀ xs, r.encryptType = some xs → ∀ x ∈ xs, d.toInt x ≠ none := by
        unfold parseResult at hp
        simp only [bind, Except.bind] at hp
        cases hi : item info "result" with
        | error e2 => rw [hi] at hp; cases hp
        | ok j =>
          rw [hi] at hp
          simp only at hp
          cases hq : d.parse j with
          | error e2 => rw [hq] at hp; cases hp
          | ok r' =>
            rw [hq] at hp
            cases hp
            intro xs
            exact hint j r xs hq
      have hmax : ∀ xs, xs ≠ [] → (∀ x ∈ xs, d.toInt x ≠ none) → ∃ n, maxInt d xs = .ok n := by
        intro xs
        induction xs with
        | nil => intro h; exact absurd rfl h
        | cons x xs ih =>
          intro _ hx
          obtain ⟨n, hn⟩ := Option.ne_none_iff_exists'.mp (hx x List.mem_cons_self)
          cases xs with
          | nil => exact ⟨n, by unfold maxInt; rw [hn]⟩
          | cons y ys =>
            obtain ⟨m, hm⟩ := ih (by simp) (fun z hz => hx z (List.mem_cons_of_mem _ hz))
            exact ⟨max n m, by unfold maxInt; rw [hn]; simp only [bind, Except.bind, hm]; rfl⟩
      cases hc : unsupportedParams d r with
      | error e' =>
        rw [hc] at hh
        simp only [Except.error.injEq] at hh
        subst hh
        unfold unsupportedParams at hc
        cases hq : connectionParameters d r with
        | ok c => rw [hq] at hc; cases hc
        | error e2 =>
          rw [hq] at hc
          simp only [Except.error.injEq] at hc
          have hk : e2.isKasa = true := by
            unfold connectionParameters at hq
            cases hs : r.scheme with
            | none => rw [hs] at hq; cases hq; rfl
            | some sch =>
              rw [hs] at hq
              simp only [bind, Except.bind] at hq
              have hlv : ∃ v, loginVersionOf d r sch = .ok v := by
                unfold loginVersionOf
                have hm : ∃ v, (match r.encryptType with
                    | some (x :: xs) => (do pure (some (← maxInt d (x :: xs))) : Except Exc (Option Int))
                    | _ => .ok none) = .ok v := by
                  cases het : r.encryptType with
                  | none => exact ⟨_, rfl⟩
                  | some l =>
                    cases l with
                    | nil => exact ⟨_, rfl⟩
                    | cons x xs =>
                      obtain ⟨n, hn⟩ := hmax (x :: xs) (by simp) (hr _ het)
                      exact ⟨some n, by simp only [bind, Except.bind, hn]; rfl⟩
                cases hlv : sch.lv with
                | none => exact hm
                | some n =>
                  by_cases hn : n ≠ 0
                  · exact ⟨some n, by simp [hn]⟩
                  · simp only [if_neg hn]
                    cases het : r.encryptType with
                    | none => exact ⟨_, rfl⟩
                    | some l =>
                      cases l with
                      | nil => exact ⟨_, rfl⟩
                      | cons x xs =>
                        obtain ⟨n, hn⟩ := hmax (x :: xs) (by simp) (hr _ het)
                        exact ⟨some n, by simp only [bind, Except.bind, hn]; rfl⟩
              obtain ⟨v, hv⟩ := hlv
              rw [hv] at hq
              simp only at hq
              cases hen : encryptionOf r sch with
              | none => rw [hen] at hq; cases hq; rfl
              | some en =>
                rw [hen] at hq
                simp only at hq
                by_cases he : en ≠ ""
                · rw [if_pos he] at hq
                  unfold fromValues at hq
                  split at hq
                  · cases hq
                  · cases hq; rfl
                · rw [if_neg he] at hq
                  cases hq; rfl
          rw [hk] at hc
          rw [← hc]; rfl
      | ok conn =>
        rw [hc] at hh
        simp only at hh
        split at hh
        · cases hh; rfl
        · split at hh
          · cases hh; rfl
          · cases hh

/-! ### What legacy answers do -/

/-- A legacy answer with a textual type naming a legacy family, and with textual name and features if any, is a device. -/
theorem C16_legacy_device (d : Deps) (config : DeviceConfig) (sys : List (String × Json)) (r : SysInfoSpec.Record)
    (hd : SysInfo.Describes sys r) (f : Family) (hf : f = .iotSmartPlugSwitch ∨ f = .iotSmartBulb)
    (ht : Dict.get? sys "mic_type" = some (.str f.value) ∨
      Dict.get? sys "mic_type" = none ∧ Dict.get? sys "type" = some (.str f.value))
    (hfeat : Dict.get? sys "feature" = none ∨ ∃ s, Dict.get? sys "feature" = some (.str s)) :
    ∃ c, SysInfo.classOf d.lower (SysInfo.answer sys) = .ok c ∧
      instanceLegacy d (SysInfo.answer sys) config =
        .ok { cls := .iot c, host := config.host, protocol := some (.iot, .xor),
              connection := ⟨f, .xor, none, false, none⟩,
              config := { config with connectionType := ⟨f, .xor, none, false, none⟩ } } := by
  obtain ⟨c, hc, -⟩ := SysInfo.C24_kind_partial d.lower sys r hd
  refine ⟨c, hc, ?_⟩
  have h1 : getDeviceClass d (SysInfo.answer sys) = .ok (.iot c) := by
    unfold getDeviceClass
    have : contains (SysInfo.answer sys) "result" = .ok false := rfl
    simp only [this, bind, Except.bind, hc, Bool.false_eq_true, if_false]
    rfl
  have h2 : (getOpt (.obj sys) "type" >>= fun t => getOr (.obj sys) "mic_type" (orNone t)) = .ok (.str f.value) := by
    simp only [getOpt, getOr, bind, Except.bind]
    rcases ht with h | ⟨h, h'⟩
    · rw [h]; rfl
    · rw [h, h']; rfl
  have hne : sys.isEmpty = false := by
    cases sys with
    | nil => rcases ht with h | ⟨h, h'⟩ <;> simp [Dict.get?] at *
    | cons x xs => rfl
  have h4 : fill (.iot c) (SysInfo.answer sys) = .ok () := by
    unfold fill fillIot
    have a1 : contains (SysInfo.answer sys) "system" = .ok true := rfl
    have a2 : item (SysInfo.answer sys) "system" = .ok (.obj [("get_sysinfo", .obj sys)]) := rfl
    have a3 : getOpt (.obj [("get_sysinfo", .obj sys)]) "get_sysinfo" = .ok (some (.obj sys)) := rfl
    have a4 : (orNone (some (Json.obj sys))).truthy = true := by
      simp only [orNone, Json.truthy, hne]
      rfl
    simp only [a1, a2, a3, a4, bind, Except.bind, if_true, pure, Except.pure]
    unfold setSysInfo
    simp only [orNone, getOpt, bind, Except.bind]
    rcases hfeat with h | ⟨s, h⟩
    · rw [h]; rfl
    · rw [h]; rfl
  have hcam : Json.str f.value ≠ .str "IOT.IPCAMERA" := by
    rcases hf with rfl | rfl <;> decide
  unfold instanceLegacy
  simp only [h1, SysInfo.extract_answer hd.flat, bind, Except.bind] at h2 ⊢
  have h2' : ∃ t, getOpt (.obj sys) "type" = .ok t ∧ getOr (.obj sys) "mic_type" (orNone t) = .ok (.str f.value) := by
    refine ⟨Dict.get? sys "type", rfl, ?_⟩
    exact h2
  obtain ⟨t, h5, h6⟩ := h2'
  simp only [h5, h6, show getOpt (.obj sys) "stream_version" = .ok (Dict.get? sys "stream_version") from rfl, if_neg hcam,
    h4]
  have hv := (C19_from_values (.str f.value) (.str "XOR") none (some (decide (Json.str f.value = .str "IOT.IPCAMERA"))) none).1
    f .xor rfl rfl
  rw [hv]
  have hfalse : decide (Json.str f.value = .str "IOT.IPCAMERA") = false := by simpa using hcam
  simp only [hfalse]
  rcases hf with rfl | rfl
  · exact congrArg Except.ok (by simp only [Dev.mk.injEq, true_and]; exact ⟨by rw [getProtocol_eq]; simp only; decide +kernel, by simp⟩)
  · exact congrArg Except.ok (by simp only [Dev.mk.injEq, true_and]; exact ⟨by rw [getProtocol_eq]; simp only; decide +kernel, by simp⟩)

/-- C16 is false of cameras answering the legacy way: their first datagram makes the library raise `KeyError`, so that the
host is in none of the three. -/
theorem C16_legacy_camera (d : Deps) (config : DeviceConfig) (sys inner : List (String × Json))
    (hs : Dict.get? sys "system" = some (.obj inner)) :
    instanceLegacy d (SysInfo.answer sys) config = .error (.other "KeyError") := by
  unfold instanceLegacy getDeviceClass
  have : contains (SysInfo.answer sys) "result" = .ok false := rfl
  simp only [this, bind, Except.bind, SysInfo.C24_camera d.lower sys inner hs, Bool.false_eq_true, if_false]

/-- C16: the device made from a new-style answer has the address of the sender, the port of the caller, and the parameters
the answer names. -/
theorem C16_new_device (d : Deps) (o : Options) (dg : Datagram) (dev : Dev) (hport : dg.port = discoveryPort2)
    (hne : o.discoveryPort ≠ discoveryPort2) (h : handle d o dg = some (.ok dev)) :
    ∃ info r s, d.loads (dg.data.drop 16) = .ok info ∧ (item info "result" >>= d.parse) = .ok r ∧ r.scheme = some s ∧
      dev.host = dg.ip ∧ dev.connection.family.value = r.deviceType ∧ dev.connection.https = s.isSupportHttps ∧
      dev.connection.httpPort = s.httpPort ∧
      (∀ e, s.encryptType = some e → e ≠ "" → dev.connection.encryption.value = e) ∧
      (∀ n, s.lv = some n → n ≠ 0 → dev.connection.loginVersion = some n) ∧
      classFromFamily r.deviceType s.isSupportHttps false = some dev.cls ∧
      dev.protocol = getProtocol dev.config false ∧
      dev.config = { o.base with host := dg.ip, portOverride := o.port.map (fun p => (p : Int)), connectionType := dev.connection } := by
  unfold handle at h
  have hx : ¬ dg.port = o.discoveryPort := by rw [hport]; exact fun h => hne h.symm
  rw [if_neg hx, if_pos hport] at h
  simp only [Option.some.injEq, bind, Except.bind] at h
  unfold jsonNew at h
  cases hl : d.loads (dg.data.drop 16) with
  | error e => rw [hl] at h; simp only [asKasa] at h; cases h
  | ok info =>
    rw [hl] at h
    simp only [asKasa] at h
    cases hr : o.raw dg with
    | error e => rw [hr] at h; cases h
    | ok u =>
      rw [hr] at h
      simp only at h
      unfold instanceNew at h
      simp only [bind, Except.bind] at h
      unfold parseResult at h
      cases hp : (item info "result" >>= d.parse) with
      | error e => rw [hp] at h; cases h
      | ok r =>
        rw [hp] at h
        simp only at h
        cases hu : unsupportedParams d r with
        | error e => rw [hu] at h; cases h
        | ok conn =>
          rw [hu] at h
          simp only at h
          unfold unsupportedParams at hu
          cases hc : connectionParameters d r with
          | error e => rw [hc] at hu; cases hu
          | ok conn' =>
            rw [hc] at hu
            cases hu
            unfold connectionParameters at hc
            cases hs : r.scheme with
            | none => rw [hs] at hc; cases hc
            | some s =>
              rw [hs] at hc
              simp only [bind, Except.bind] at hc
              cases hv : loginVersionOf d r s with
              | error e => rw [hv] at hc; cases hc
              | ok v =>
                rw [hv] at hc
                simp only at hc
                cases he : encryptionOf r s with
                | none => rw [he] at hc; cases hc
                | some e =>
                  rw [he] at hc
                  simp only at hc
                  by_cases hee : e ≠ ""
                  · rw [if_pos hee] at hc
                    unfold fromValues at hc
                    cases hf : Family.ofJson (.str r.deviceType) with
                    | error x => rw [hf] at hc; cases hc
                    | ok f =>
                      cases hq : Encryption.ofJson (.str e) with
                      | error x => rw [hf, hq] at hc; cases hc
                      | ok q =>
                        rw [hf, hq] at hc
                        cases hc
                        have hfv : f.value = r.deviceType := by
                          unfold Family.ofJson at hf
                          cases hfind : Family.all.find? (fun f => decide (Json.str r.deviceType = .str f.value)) with
                          | none => rw [hfind] at hf; cases hf
                          | some g =>
                            rw [hfind] at hf
                            cases hf
                            have := List.find?_some hfind
                            rw [decide_eq_true_eq] at this
                            exact (Json.str.inj this).symm
                        have hqv : q.value = e := by
                          unfold Encryption.ofJson at hq
                          cases hfind : Encryption.all.find? (fun f => decide (Json.str e = .str f.value)) with
                          | none => rw [hfind] at hq; cases hq
                          | some g =>
                            rw [hfind] at hq
                            cases hq
                            have := List.find?_some hfind
                            rw [decide_eq_true_eq] at this
                            exact (Json.str.inj this).symm
                        simp only [Option.getD_some] at h
                        cases hcls : classFromFamily r.deviceType s.isSupportHttps false with
                        | none => rw [hcls] at h; cases h
                        | some cls =>
                          rw [hcls] at h
                          simp only at h
                          split at h
                          · cases h
                          · next p hgp =>
                            cases h
                            refine ⟨info, r, s, rfl, hp, hs, rfl, hfv, rfl, rfl, ?_, ?_, hcls, hgp.symm, rfl⟩
                            · intro e' h1 h2
                              unfold encryptionOf at he
                              rw [h1] at he
                              simp only [if_pos h2] at he
                              cases he
                              exact hqv
                            · intro n h1 h2
                              unfold loginVersionOf at hv
                              rw [h1] at hv
                              simp only [if_pos h2] at hv
                              cases hv
                              rfl
                  · rw [if_neg hee] at hc
                    cases hc

theorem ok_bind {α β : Type} {x : Except Exc α} {a : α} {f : α → Except Exc β} (h : x = .ok a) : x >>= f = f a := by
  rw [h]; rfl

/-- A plug that names a newer family. -/
def oddPlug : List (String × Json) := [("type", .str "IOT.SMARTPLUGSWITCH"), ("mic_type", .str "SMART.TAPOPLUG")]

theorem oddPlug_class (lower : String → String) (hl : lower "IOT.SMARTPLUGSWITCH" = "iot.smartplugswitch") :
    SysInfo.classOf lower (SysInfo.answer oddPlug) = .ok .plug := by
  have h0 : hasText "smartplug" "iot.smartplugswitch" = true := by decide +kernel
  have h1 : lowerHas lower "smartplug" (.str "IOT.SMARTPLUGSWITCH") = .ok true := by
    unfold lowerHas; simp only; rw [hl, h0]
  have h2 : SysInfo.typeOf (.obj oddPlug) = .ok (.str "IOT.SMARTPLUGSWITCH") := rfl
  have h3 : SysInfo.isDimmer (.obj oddPlug) = .ok false := rfl
  have h4 : SysInfo.plugKind lower (.obj oddPlug) = .ok .plug := rfl
  have h5 : Json.str "IOT.SMARTPLUGSWITCH" ≠ .null := Json.noConfusion
  have h6 : SysInfo.kindOf lower (.obj oddPlug) (.str "IOT.SMARTPLUGSWITCH") = .ok .plug := by
    unfold SysInfo.kindOf
    rw [ok_bind h3, if_neg Bool.false_ne_true, ok_bind h1, if_pos rfl, h4]
  have hx : SysInfo.extract (SysInfo.answer oddPlug) = .ok (.obj oddPlug) := SysInfo.extract_answer rfl
  have h7 : SysInfo.kindOfInfo lower (SysInfo.answer oddPlug) = .ok .plug := by
    unfold SysInfo.kindOfInfo
    rw [ok_bind hx, ok_bind h2, if_neg h5, h6]
  have h8 : SysInfo.deviceType lower (SysInfo.answer oddPlug) = .ok .plug :=
    (SysInfo.deviceType_answer lower rfl).trans h7
  unfold SysInfo.classOf
  rw [ok_bind h8]
  rfl

/-- C50: a legacy answer can yield a device without protocol, here from a plug that names a newer family. -/
theorem C50_no_protocol (d : Deps) (config : DeviceConfig) (hl : d.lower "IOT.SMARTPLUGSWITCH" = "iot.smartplugswitch") :
    instanceLegacy d (SysInfo.answer oddPlug) config =
      .ok { cls := .iot .plug, host := config.host, protocol := none, connection := ⟨.smartTapoPlug, .xor, none, false, none⟩,
            config := { config with connectionType := ⟨.smartTapoPlug, .xor, none, false, none⟩ } } := by
  have h1 : getDeviceClass d (SysInfo.answer oddPlug) = .ok (.iot .plug) := by
    unfold getDeviceClass
    have : contains (SysInfo.answer oddPlug) "result" = .ok false := rfl
    simp only [this, bind, Except.bind, oddPlug_class d.lower hl, Bool.false_eq_true, if_false]
    rfl
  have h2 : SysInfo.extract (SysInfo.answer oddPlug) = .ok (.obj oddPlug) := SysInfo.extract_answer rfl
  have h3 : getOpt (.obj oddPlug) "type" = .ok (some (.str "IOT.SMARTPLUGSWITCH")) := rfl
  have h4 : ∀ x, getOr (.obj oddPlug) "mic_type" x = .ok (.str "SMART.TAPOPLUG") := fun _ => rfl
  have h5 : getOpt (.obj oddPlug) "stream_version" = .ok none := rfl
  have hne : Json.str "SMART.TAPOPLUG" ≠ .str "IOT.IPCAMERA" := by decide
  have h6 : fromValues (.str "SMART.TAPOPLUG") (.str "XOR") none (some false) none = .ok ⟨.smartTapoPlug, .xor, none, false, none⟩ :=
    (C19_from_values (.str "SMART.TAPOPLUG") (.str "XOR") none (some false) none).1 .smartTapoPlug .xor rfl rfl
  have h7 : fill (.iot .plug) (SysInfo.answer oddPlug) = .ok () := rfl
  unfold instanceLegacy
  simp only [bind, Except.bind, pure, Except.pure, h1, h2, h3, h4, h5, if_neg hne, decide_eq_false hne, h6, h7]
  refine congrArg Except.ok ?_
  simp only [Dev.mk.injEq, true_and, and_true]
  rw [getProtocol_eq]
  simp only
  decide +kernel

/-! ## C17 -/

section
variable (d : Deps) (o : Options)

theorem first_prefix {ip : String} {a b : List Datagram} (h : (first ip a).isSome) : first ip (a ++ b) = first ip a := by
  unfold first at *
  rw [List.find?_append]
  cases hf : List.find? (fun dg => decide (dg.ip = ip)) a with
  | none => rw [hf] at h; cases h
  | some x => rfl

/-- Everything that arrives during the rounds: the search stops after the round in which the target was first heard. -/
theorem doDiscover_inv {s : St} {dgs : List Datagram} (h : Inv d o s dgs) (rounds : List (List Datagram)) :
    (doDiscover d o s rounds).1 ≤ rounds.length ∧
      Inv d o (doDiscover d o s rounds).2 (dgs ++ (rounds.take (doDiscover d o s rounds).1).flatten) ∧
      (∀ j, j < (doDiscover d o s rounds).1 → first o.target (dgs ++ (rounds.take j).flatten) = none) ∧
      ((doDiscover d o s rounds).1 < rounds.length →
        (first o.target (dgs ++ (rounds.take (doDiscover d o s rounds).1).flatten)).isSome) := by
  induction rounds generalizing s dgs with
  | nil => exact ⟨Nat.le_refl _, by simpa [doDiscover] using h, by simp [doDiscover], by simp [doDiscover]⟩
  | cons r rest ih =>
    unfold doDiscover
    by_cases ht : o.target ∈ s.seen
    · rw [if_pos ht]
      exact ⟨by simp, by simpa using h, by simp, fun _ => by simpa using (h.seen _).mp ht⟩
    · rw [if_neg ht]
      have h1 := inv_all d o h r
      have h0 : first o.target dgs = none := by
        cases hf : first o.target dgs with
        | none => rfl
        | some x => exact absurd ((h.seen _).mpr (by rw [hf]; rfl)) ht
      simp only
      by_cases hc : (receiveAll d o s r).cancelled = true
      · rw [if_pos hc]
        refine ⟨by simp, by simpa using h1, ?_, fun _ => by simpa using h1.only hc⟩
        intro j hj
        have : j = 0 := by simpa using hj
        subst this
        simpa using h0
      · rw [if_neg hc]
        obtain ⟨h2, h3, h4, h5⟩ := ih h1
        refine ⟨by simpa using h2, by simpa [List.append_assoc] using h3, ?_, ?_⟩
        · intro j hj
          cases j with
          | zero => simpa using h0
          | succ j => simpa [List.append_assoc] using h4 j (by simpa using hj)
        · intro hlt
          have := h5 (by simpa using hlt)
          simpa [List.append_assoc] using this

/-- The state in which the search for one host ends. -/
def searched (rounds : List (List Datagram)) : Nat × St :=
  doDiscover d { o with onDiscovered := false, onUnsupported := false } St.init rounds

theorem searched_get (rounds : List (List Datagram)) :
    let s := (searched d o rounds).2
    s.discovered.get? o.target = ((first o.target rounds.flatten).bind fun dg =>
      match handle d o dg with | some (.ok dev) => some dev | _ => none) ∧
    s.unsupported.get? o.target = ((first o.target rounds.flatten).bind fun dg =>
      match handle d o dg with | some (.error .unsupported) => some .unsupported | _ => none) ∧
    s.invalid.get? o.target = ((first o.target rounds.flatten).bind fun dg =>
      match handle d o dg with
      | some (.error e) => if e.isKasa ∧ e ≠ .unsupported then some e else none
      | _ => none) := by
  obtain ⟨h1, h2, -, h4⟩ := doDiscover_inv d { o with onDiscovered := false, onUnsupported := false } (inv_init _ _) rounds
  simp only [List.nil_append] at h2 h4
  have hf : first o.target (rounds.take (searched d o rounds).1).flatten = first o.target rounds.flatten := by
    rcases Nat.lt_or_eq_of_le h1 with hlt | heq
    · have := h4 hlt
      conv => rhs; rw [← List.take_append_drop (searched d o rounds).1 rounds, List.flatten_append]
      exact (first_prefix this).symm
    · have : rounds.take (searched d o rounds).1 = rounds := by
        unfold searched; rw [heq, List.take_length]
      rw [this]
  rw [← hf]
  exact ⟨h2.discovered _, h2.unsupported _, h2.invalid _⟩

/-- C17: what a search for one host returns is decided by the first datagram from that host, whatever other hosts send:
a device carrying the host name given by the caller, the error raised while reading the answer, or a timeout if the host
sent nothing.  Partial: see `C17_unexpected_port` and `C17_no_protocol`. -/
theorem C17_result_partial (host : String) (rounds : List (List Datagram)) :
    (first o.target rounds.flatten = none → (discoverSingle d o host rounds).2 = .raised .timeout) ∧
    ∀ dg, first o.target rounds.flatten = some dg →
      (∀ dev p, handle d o dg = some (.ok dev) → dev.protocol = some p →
        (discoverSingle d o host rounds).2 = .device { dev with host }) ∧
      (∀ e, handle d o dg = some (.error e) → e.isKasa = true → (e = .unsupported → o.onUnsupported = false) →
        (discoverSingle d o host rounds).2 = .raised e) ∧
      (handle d o dg = some (.error .unsupported) → o.onUnsupported = true →
        (discoverSingle d o host rounds).2 = .reported) := by
  obtain ⟨h1, h2, h3⟩ := searched_get d o rounds
  have hd : (discoverSingle d o host rounds).2 = singleResult o (searched d o rounds).2 host := rfl
  rw [hd]
  unfold singleResult
  refine ⟨?_, ?_⟩
  · intro hf
    rw [hf] at h1 h2 h3
    simp only [Option.bind_none] at h1 h2 h3
    rw [h1, h2, h3]
  · intro dg hf
    rw [hf] at h1 h2 h3
    simp only [Option.bind_some] at h1 h2 h3
    refine ⟨?_, ?_, ?_⟩
    · intro dev p hh hp
      rw [hh] at h1
      rw [h1]
      simp only [hp]
    · intro e hh hk hu
      rw [hh] at h1 h2 h3
      by_cases he : e = .unsupported
      · subst he
        rw [h1, h2]
        simp only [hu rfl]
        rfl
      · simp only [hk, he, ne_eq, not_false_eq_true, and_self, if_true] at h3
        have : (searched d o rounds).2.unsupported.get? o.target = none := by
          rw [h2]; cases e <;> first | rfl | exact absurd rfl he
        rw [h1, this, h3]
    · intro hh hu
      rw [hh] at h1 h2
      rw [h1, h2]
      simp only [hu, if_true]

/-- C17: probes are sent in rounds, until the round in which the host is first heard, and then no more. -/
theorem C17_stops (host : String) (rounds : List (List Datagram)) :
    (∀ j, j < (discoverSingle d o host rounds).1 → first o.target (rounds.take j).flatten = none) ∧
    ((discoverSingle d o host rounds).1 < rounds.length →
      (first o.target (rounds.take (discoverSingle d o host rounds).1).flatten).isSome) ∧
    (discoverSingle d o host rounds).1 ≤ rounds.length := by
  obtain ⟨h1, -, h3, h4⟩ := doDiscover_inv d { o with onDiscovered := false, onUnsupported := false } (inv_init _ _) rounds
  simp only [List.nil_append] at h3 h4
  exact ⟨h3, h4, h1⟩

/-- C17 is false of hosts that send something from another port first: the answer that follows is ignored, and the search
times out. -/
theorem C17_unexpected_port (host : String) (noise answer : Datagram) (rest : List (List Datagram))
    (hn : noise.ip = o.target) (hp : noise.port ≠ o.discoveryPort ∧ noise.port ≠ discoveryPort2) :
    (discoverSingle d o host ([noise, answer] :: rest)).2 = .raised .timeout := by
  obtain ⟨h1, h2, h3⟩ := searched_get d o ([noise, answer] :: rest)
  have hf : first o.target ([noise, answer] :: rest).flatten = some noise := by simp [first, hn]
  have hh : handle d o noise = none := by
    unfold handle
    rw [if_neg hp.1, if_neg hp.2]
  rw [hf] at h1 h2 h3
  simp only [Option.bind_some, hh] at h1 h2 h3
  show singleResult o (searched d o ([noise, answer] :: rest)).2 host = _
  unfold singleResult
  rw [h1, h2, h3]

/-- C17 is false of legacy answers for which no protocol is found: the search raises `AttributeError`. -/
theorem C17_no_protocol (host : String) (rounds : List (List Datagram)) (dg : Datagram) (dev : Dev)
    (hf : first o.target rounds.flatten = some dg) (hh : handle d o dg = some (.ok dev)) (hp : dev.protocol = none) :
    (discoverSingle d o host rounds).2 = .raised (.other "AttributeError") := by
  obtain ⟨h1, -, -⟩ := searched_get d o rounds
  rw [hf] at h1
  simp only [Option.bind_some, hh] at h1
  show singleResult o (searched d o rounds).2 host = _
  unfold singleResult
  rw [h1]
  simp only [hp]

/-! ## C52 -/

/-- C52: if discovering fails with an error of the library or is cancelled, the error is passed on and every device found
is closed, once and in order.  Partial: provided that every device has a protocol and closing does not fail. -/
theorem C52_closed_partial (close : String → Except Exc Unit) (s : St) (e : Exc) (he : e.isKasa = true ∨ e = .base)
    (hp : ∀ x ∈ s.discovered, x.2.protocol ≠ none) (hc : ∀ x ∈ s.discovered, close x.1 = .ok ()) :
    finish close (.error e) s = (.error e, s.discovered.keys) := by
  have key : ∀ l : Dict String Dev, (∀ x ∈ l, x.2.protocol ≠ none) → (∀ x ∈ l, close x.1 = .ok ()) →
      closeAll close l = (.ok (), l.keys) := by
    intro l
    induction l with
    | nil => intro _ _; rfl
    | cons x l ih =>
      obtain ⟨ip, dev⟩ := x
      intro h1 h2
      unfold closeAll
      cases hd : dev.protocol with
      | none => exact absurd hd (h1 _ List.mem_cons_self)
      | some p =>
        simp only [h2 (ip, dev) List.mem_cons_self,
          ih (fun x hx => h1 x (List.mem_cons_of_mem _ hx)) (fun x hx => h2 x (List.mem_cons_of_mem _ hx))]
        rfl
  unfold finish
  simp only [if_pos he, key s.discovered hp hc]

/-- C52: if discovering succeeds, what is returned is what was found, and nothing is closed. -/
theorem C52_returned (close : String → Except Exc Unit) (s : St) : finish close (.ok ()) s = (.ok s.discovered, []) := rfl

/-- C52 is false of other errors, such as those of the caller's callbacks: whatever was found is left open. -/
theorem C52_left_open (close : String → Except Exc Unit) (s : St) (e : Exc) (he : e.isKasa = false) (hb : e ≠ .base) :
    finish close (.error e) s = (.error e, []) := by
  unfold finish
  simp only [he, hb]
  rfl

/-- C52 is false if closing one device fails: the devices after it are left open and its error replaces the first. -/
theorem C52_close_fails (close : String → Except Exc Unit) (s : St) (e e' : Exc) (he : e.isKasa = true ∨ e = .base)
    (ip : String) (dev : Dev) (p : Proto × Transport) (rest : Dict String Dev) (hs : s.discovered = (ip, dev) :: rest)
    (hp : dev.protocol = some p) (hc : close ip = .error e') :
    finish close (.error e) s = (.error e', [ip]) := by
  unfold finish
  simp only [if_pos he, hs, closeAll, hp, hc]

end

/-! ### Examples -/

/-- A toy environment: an answer is always the same plug. -/
def plugInfo : List (String × Json) := [("type", .str "IOT.SMARTPLUGSWITCH"), ("alias", .str "lamp")]
def toyDeps : Deps :=
  { loads := fun b => if b = [] then .error (.other "JSONDecodeError") else .ok (SysInfo.answer plugInfo)
    parse := fun _ => .error (.other "MissingField"), toInt := fun _ => none
    lower := fun s => if s = "IOT.SMARTPLUGSWITCH" then "iot.smartplugswitch" else s }
def toyOptions : Options :=
  { target := "10.0.0.7", port := none, base := ofHost "", onDiscovered := true, onUnsupported := false, raw := fun _ => .ok () }

example : (after toyDeps toyOptions [⟨[1], "10.0.0.1", 9999⟩, ⟨List.replicate 17 1, "10.0.0.2", 20002⟩, ⟨[1], "10.0.0.1", 20002⟩, ⟨[], "10.0.0.3", 9999⟩]).discovered.keys =
    ["10.0.0.1"] := by decide +kernel
example : (after toyDeps toyOptions [⟨[1], "10.0.0.1", 9999⟩, ⟨List.replicate 17 1, "10.0.0.2", 20002⟩, ⟨[1], "10.0.0.1", 20002⟩, ⟨[1], "10.0.0.3", 20002⟩]).unsupported.keys =
    ["10.0.0.2"] := by decide +kernel
example : (after toyDeps toyOptions [⟨[1], "10.0.0.1", 9999⟩, ⟨List.replicate 17 1, "10.0.0.2", 20002⟩, ⟨[1], "10.0.0.1", 20002⟩, ⟨[1], "10.0.0.3", 20002⟩]).invalid.keys =
    ["10.0.0.3"] := by decide +kernel
example : (discoverSingle toyDeps toyOptions "lamp.local" [[⟨[1], "10.0.0.1", 9999⟩], [⟨[1], "10.0.0.7", 9999⟩], [⟨[], "10.0.0.7", 9999⟩]]) =
    (2, .device ⟨.iot .plug, "lamp.local", some (.iot, .xor), ⟨.iotSmartPlugSwitch, .xor, none, false, none⟩,
      { ofHost "10.0.0.7" with connectionType := ⟨.iotSmartPlugSwitch, .xor, none, false, none⟩ }⟩) := by decide +kernel
example : (discoverSingle toyDeps toyOptions "lamp.local" [[⟨[1], "10.0.0.7", 1234⟩], [⟨[1], "10.0.0.7", 9999⟩]]).2 =
    .raised .timeout := by decide +kernel

/-- A toy environment in which answers name a Tapo bulb using KLAP on port 4433. -/
def bulbDeps : Deps :=
  { toyDeps with
    loads := fun _ => .ok (.obj [("result", .obj [])])
    parse := fun _ => .ok ⟨"SMART.TAPOBULB", "L530", some ⟨false, some "KLAP", some 4433, some 2⟩, none, none⟩ }

example : handle bulbDeps { toyOptions with port := some 81 } ⟨[], "10.0.0.9", 20002⟩ =
    some (.ok ⟨.smart, "10.0.0.9", some (.smart, .klapV2), ⟨.smartTapoBulb, .klap, some 2, false, some 4433⟩,
      { ofHost "10.0.0.9" with portOverride := some 81, connectionType := ⟨.smartTapoBulb, .klap, some 2, false, some 4433⟩ }⟩) := by
  decide +kernel

end Kasa.Discover
