import Verif.Lemmas.Faithful
import Verif.Lemmas.CamFaithful
/-!
# Queries over a transport that recovers
-/

namespace Kasa.Retry
open PyM

theorem loop_retryable {S α : Type} {ops : Ops S α} {rc : Int} {n : Nat} {rest : List Nat} {s s1 s2 : S} {k : Option Int} (hn : (n : Int) < rc)
    (h1 : ops.attempt n s = (.error (.retryable k), s1)) (h2 : ops.reset s1 = (.ok (), s2)) (h3 : ops.sleep s2 = (.ok (), s2)) :
    loop true ops rc (n :: rest) s = loop true ops rc rest s2 := by
  unfold loop tryExcept
  simp only [h1, bind_apply, h2]
  rw [if_neg (by omega)]
  simp only [if_true, bind_apply, h3]
  cases rest <;> rfl

/-- Errors of the library that are not followed by a retry. -/
def Final : Exc → Prop
  | .auth _ | .kasa | .unsupported | .device _ => True
  | _ => False

theorem loop_final {S α : Type} {ops : Ops S α} {rc : Int} {n : Nat} {rest : List Nat} {s s1 s2 : S} {e : Exc} (he : Final e)
    (h1 : ops.attempt n s = (.error e, s1)) (h2 : ops.reset s1 = (.ok (), s2)) :
    loop true ops rc (n :: rest) s = (.error e, s2) := by
  unfold loop tryExcept
  cases e with
  | auth k => simp only [h1, bind_apply, h2, raise_apply]
  | kasa => simp only [h1, bind_apply, h2, raise_apply]
  | unsupported => simp only [h1, bind_apply, h2, raise_apply]
  | device k => simp only [h1, bind_apply, h2, raise_apply]
  | _ => exact he.elim

end Kasa.Retry

namespace Kasa.EndToEnd
open PyM

/-- A transport when nothing goes wrong any more: a request is answered, or refused without being carried out; after a reset the next one
is answered. `Refuses`: with which errors it can be refused. -/
structure Heals {σ α : Type} (t : Smart.Transport σ) (p : Program α) (uuid : String) (Refuses : Exc → Prop) (Late After Ready : σ → Prop)
    (state : σ → α) : Prop where
  late : ∀ w, Smart.WireAll JsonText.Proper w → ∀ s, Late s → ∃ j res s', Message uuid w j ∧ t.send w s = (res, s') ∧ After s' ∧
    ((res = .ok (p.run j (state s)).1 ∧ state s' = (p.run j (state s)).2) ∨
      ∃ e, res = .error e ∧ ((∃ k, e = .retryable k) ∨ Refuses e) ∧ state s' = state s)
  ready : ∀ w, Smart.WireAll JsonText.Proper w → ∀ s, Ready s → ∃ j s', Message uuid w j ∧ t.send w s = (.ok (p.run j (state s)).1, s') ∧
    state s' = (p.run j (state s)).2
  reset : ∀ s, After s → ∃ s', t.reset s = (.ok (), s') ∧ Ready s' ∧ state s' = state s
  final : ∀ e, Refuses e → Retry.Final e

section
variable {σ α : Type} {t : Smart.Transport σ} {p : Program α} {uuid : String} {Refuses : Exc → Prop} {Late After Ready : σ → Prop} {state : σ → α}

/-- With a retry, a query whose attempts work unless they are refused works, or is refused as not authenticated; then the next one works. -/
theorem retried_heals {attempt : PyM (Smart.St σ) (Dict String Smart.Entry)} {r : Dict String Smart.Entry} {f : α → α}
    (H : Heals t p uuid Refuses Late After Ready state)
    (hlate : ∀ s, Late s.world → ∃ o s', attempt s = (o, s') ∧ After s'.world ∧
      ((o = .ok r ∧ state s'.world = f (state s.world)) ∨
        ∃ e, o = .error e ∧ ((∃ k, e = .retryable k) ∨ Refuses e) ∧ state s'.world = state s.world))
    (hready : ∀ s, Ready s.world → ∃ s', attempt s = (.ok r, s') ∧ state s'.world = f (state s.world))
    (rc : Nat) (s : Smart.St σ) (hs : Late s.world) :
    let out := Smart.retried t attempt (rc + 1 : Nat) s
    (out.1 = .ok r ∧ state out.2.world = f (state s.world)) ∨
      ((∃ e, Refuses e ∧ out.1 = .error e) ∧ state out.2.world = state s.world ∧ Ready out.2.world) := by
  intro out
  obtain ⟨o, s1, h1, h2, h3⟩ := hlate s hs
  rcases h3 with ⟨rfl, h4⟩ | ⟨e, rfl, he, h4⟩
  · have : out = (.ok r, s1) := Smart.retried_ok t (rc + 1) h1
    rw [this]
    exact .inl ⟨rfl, h4⟩
  · obtain ⟨s2, h5, h6, h7⟩ := H.reset s1.world h2
    have hr : List.range ((rc + 1 : Nat) + 1 : Int).toNat = 0 :: List.map Nat.succ (0 :: List.map Nat.succ (List.range rc)) := by
      have : ((rc + 1 : Nat) + 1 : Int).toNat = (rc + 1) + 1 := by omega
      rw [this, List.range_succ_eq_map, List.range_succ_eq_map]
    rcases he with ⟨k, rfl⟩ | hR
    · obtain ⟨s3, g1, g3⟩ := hready { s1 with world := s2 } h6
      have : out = (.ok r, s3) := by
        show Retry.smartQuery _ _ s = _
        unfold Retry.smartQuery
        rw [hr]
        refine (Retry.loop_retryable (k := k) (s1 := s1) (s2 := { s1 with world := s2 }) (by omega) h1 ?_ rfl).trans ?_
        · show ((t.reset s1.world).1, ({ s1 with world := (t.reset s1.world).2 } : Smart.St σ)) = _
          rw [h5]
        unfold Retry.loop
        exact tryExcept_ok g1
      rw [this]
      exact .inl ⟨rfl, g3.trans (by show f (state s2) = _; rw [h7, h4])⟩
    · have : out = (.error e, { s1 with world := s2 }) := by
        show Retry.smartQuery _ _ s = _
        unfold Retry.smartQuery
        rw [hr]
        refine Retry.loop_final (H.final e hR) (s1 := s1) h1 ?_
        show ((t.reset s1.world).1, ({ s1 with world := (t.reset s1.world).2 } : Smart.St σ)) = _
        rw [h5]
      rw [this]
      exact .inr ⟨⟨e, hR, rfl⟩, h7.trans h4, h6⟩

/-- A query that sets something. -/
theorem Heals.setter (H : Heals t p uuid Refuses Late After Ready state) (m : String) (q : Json) (hq : JsonText.Proper q) {f : α → α} {v : Json}
    (hset : Sets p uuid (SmartSpec.requestFor m q) f v) (rc : Nat) (s : Smart.St σ) (hs : Late s.world) :
    let out := Smart.query t (.dict [(m, q)]) (rc + 1 : Nat) s
    (out.1 = .ok [(m, .value v)] ∧ state out.2.world = f (state s.world)) ∨
      ((∃ e, Refuses e ∧ out.1 = .error e) ∧ state out.2.world = state s.world ∧ ∀ rc' : Nat,
        let again := Smart.query t (.dict [(m, q)]) rc' out.2
        again.1 = .ok [(m, .value v)] ∧ state again.2.world = f (state s.world)) := by
  have hw : Smart.WireAll JsonText.Proper (.single (Smart.mkRequest m q)) := Smart.mkRequest_wireAll hq
  have hgood : ∀ (s : Smart.St σ) s' j, Message uuid (.single (Smart.mkRequest m q)) j →
      t.send (.single (Smart.mkRequest m q)) s.world = (.ok (p.run j (state s.world)).1, s') →
      Smart.executeQuery t (.dict [(m, q)]) s = (.ok [(m, .value v)], { s with world := s', wire := s.wire ++ [.single (Smart.mkRequest m q)] }) := by
    intro s s' j hmsg ht
    rw [Smart.executeQuery_one, bind_apply, Smart.executeSingle_carries t ht (hset.answer _ _ hmsg)]
    simp only
    have hc : Smart.completeEntry (some fun m _ n => Smart.fetchPage t m n) m q (.value v)
        { s with world := s', wire := s.wire ++ [.single (Smart.mkRequest m q)] } =
        (.ok (.value v), { s with world := s', wire := s.wire ++ [.single (Smart.mkRequest m q)] }) := by
      unfold Smart.completeEntry
      simp only
      split
      · rw [bind_apply, Smart.handleResponseLists_unpaged _ v hset.unpaged]
        rfl
      · rfl
    rw [bind_apply, hc]
    rfl
  have hready : ∀ s : Smart.St σ, Ready s.world → ∃ s', Smart.executeQuery t (.dict [(m, q)]) s = (.ok [(m, .value v)], s') ∧
      state s'.world = f (state s.world) := by
    intro s hs
    obtain ⟨j, s', h1, h2, h4⟩ := H.ready _ hw s.world hs
    exact ⟨_, hgood s s' j h1 h2, h4.trans (hset.state _ _ h1)⟩
  intro out
  have := retried_heals H (attempt := Smart.executeQuery t (.dict [(m, q)])) (r := [(m, .value v)]) (f := f) (by
    intro s hs
    obtain ⟨j, res, s', h1, h2, h3, h4⟩ := H.late _ hw s.world hs
    rcases h4 with ⟨rfl, h5⟩ | ⟨e, rfl, h5, h6⟩
    · exact ⟨_, _, hgood s s' j h1 h2, h3, .inl ⟨rfl, h5.trans (hset.state _ _ h1)⟩⟩
    · refine ⟨.error e, { s with world := s', wire := s.wire ++ [.single (Smart.mkRequest m q)] }, ?_, h3, .inr ⟨e, rfl, h5, h6⟩⟩
      rw [Smart.executeQuery_one, bind_apply]
      have : Smart.executeSingle t m q s = (.error e, { s with world := s', wire := s.wire ++ [.single (Smart.mkRequest m q)] }) := by
        unfold Smart.executeSingle
        rw [bind_apply, Smart.send_apply, h2]
      rw [this]) hready rc s hs
  rcases this with h1 | ⟨h1, h2, h3⟩
  · exact .inl h1
  · refine .inr ⟨h1, h2, fun rc' => ?_⟩
    obtain ⟨s', g1, g3⟩ := hready out.2 h3
    intro again
    have hag : again = (.ok [(m, .value v)], s') := Smart.retried_ok t rc' g1
    rw [hag]
    exact ⟨rfl, g3.trans (congrArg f h2)⟩

end
end Kasa.EndToEnd

namespace Kasa.CamEndToEnd
open PyM EndToEnd
open EndToEnd (Heals)

section
variable {σ α : Type} {t : Smart.Transport σ} {p : Program α} {uuid : String} {Refuses : Exc → Prop} {Late After Ready : σ → Prop} {state : σ → α}

/-- A camera query that sets something. -/
theorem setter_heals (H : Heals t p uuid Refuses Late After Ready state) (m : String) (hm : Plain m) (q : Json) (hq : JsonText.Proper q) {f : α → α} {v : Json}
    (hset : Sets p uuid (SmartSpec.requestFor m q) f v) (rc : Nat) (s : Smart.St σ) (hs : Late s.world) :
    let out := SmartCam.query t (.dict [(m, q)]) (rc + 1 : Nat) s
    (out.1 = .ok [(m, .value v)] ∧ state out.2.world = f (state s.world)) ∨
      ((∃ e, Refuses e ∧ out.1 = .error e) ∧ state out.2.world = state s.world ∧ ∀ rc' : Nat,
        let again := SmartCam.query t (.dict [(m, q)]) rc' out.2
        again.1 = .ok [(m, .value v)] ∧ state again.2.world = f (state s.world)) := by
  have hst : ∀ w j a, (w = .single (Smart.mkRequest m q) ∨ w = .multi [Smart.mkRequest m q]) → Message uuid w j → (p.run j a).2 = f a := by
    intro w j a hw hmsg
    refine hset.state _ _ ?_
    rcases hw with rfl | rfl
    · exact .inl hmsg
    · exact .inr hmsg
  have hready : ∀ s : Smart.St σ, Ready s.world → ∃ s', SmartCam.executeQuery t (.dict [(m, q)]) s = (.ok [(m, .value v)], s') ∧
      state s'.world = f (state s.world) := by
    intro s hs
    obtain ⟨w, hw, -, hgood⟩ := one_answered (t := t) m hm q hset s
    obtain ⟨j, s', h1, h2, h4⟩ := H.ready w (wire_all hq hw) s.world hs
    exact ⟨_, hgood _ _ _ h1 h2, h4.trans (hst w j _ hw h1)⟩
  intro out
  have := retried_heals H (attempt := SmartCam.executeQuery t (.dict [(m, q)])) (r := [(m, .value v)]) (f := f) (by
    intro s hs
    obtain ⟨w, hw, hbad, hgood⟩ := one_answered (t := t) m hm q hset s
    obtain ⟨j, res, s', h1, h2, h3, h4⟩ := H.late w (wire_all hq hw) s.world hs
    rcases h4 with ⟨rfl, h5⟩ | ⟨e, rfl, h5, h6⟩
    · exact ⟨_, _, hgood _ _ _ h1 h2, h3, .inl ⟨rfl, h5.trans (hst w j _ hw h1)⟩⟩
    · exact ⟨_, _, hbad e s' h2, h3, .inr ⟨e, rfl, h5, h6⟩⟩) hready rc s hs
  rcases this with h1 | ⟨h1, h2, h3⟩
  · exact .inl h1
  · refine .inr ⟨h1, h2, fun rc' => ?_⟩
    obtain ⟨s', g1, g3⟩ := hready out.2 h3
    intro again
    have hag : again = (.ok [(m, .value v)], s') := Smart.retried_ok t rc' g1
    rw [hag]
    exact ⟨rfl, g3.trans (congrArg f h2)⟩

end
end Kasa.CamEndToEnd
