import Verif.Spec.LegacyEndToEnd
import Verif.Props.EndToEnd
import Verif.Props.XorTransport
import Verif.Lemmas.RetryLoop
/-!
# C76: legacy devices over an unreliable network
-/

namespace Kasa.LegacyEndToEnd
open PyM EndToEnd

theorem zip_xor (k : UInt8) (p : Bytes) :
    List.zipWith (· ^^^ ·) (k :: Xor.xorPayloadFrom k p) (Xor.xorPayloadFrom k p) = p := by
  induction p generalizing k with
  | nil => rfl
  | cons b p ih =>
    rw [Xor.xorPayloadFrom]
    simp only [List.zipWith_cons_cons]
    rw [ih, Xor.xor_cancel]

/-- The device reads what was sent. -/
theorem deviceReads_encrypt (lib : JsonText.Lib) (j : Json) (hj : JsonText.Proper j) {b : Bytes}
    (hb : Xor.encrypt (utf8 (JsonText.dumps lib j)) = some b) : deviceReads b = some j := by
  unfold Xor.encrypt at hb
  split at hb
  · cases hb
  · next header hh =>
    cases hb
    have hlen : header.length = 4 := by
      unfold packU32 at hh
      split at hh
      · cases hh; rfl
      · cases hh
    unfold deviceReads
    simp only [List.drop_left' hlen, Xor.xorPayload, Xor.initializationVector, zip_xor, fromUtf8_utf8, Option.bind_some,
      JsonText.C70_round_trip lib j hj]

section
variable {α : Type} (lib lib' : JsonText.Lib) (p : Program α) (x : Chance)

/-- What holds between requests. -/
structure Good (w : World α) : Prop where
  short : ∀ i, (w.answer i).length < 2 ^ 32
  synced : XorT.Synced w.answer w.transport
  old : ∀ c, w.transport.conn = some c → ∀ i ∈ c.sent, i < w.count

theorem stream_congr {f g : Nat → Bytes} {l : List Nat} (h : ∀ i ∈ l, f i = g i) : XorT.stream f l = XorT.stream g l := by
  unfold XorT.stream
  rw [List.map_congr_left fun i hi => by rw [h i hi]]

/-- The ids on the connection after a request. -/
theorem send_sent {Val : Type} (pr : Bytes → Option Val) (answer : Nat → Bytes) (i : Nat) (request : Bytes) (e : XorT.SendEnv)
    (s s' : XorT.St) (r : Except Exc Val) (h : XorT.send pr answer i request e s = (r, s')) (hs : ∀ c, s.conn = some c → ∀ k ∈ c.sent, k < i) :
    ∀ c, s'.conn = some c → ∀ k ∈ c.sent, k < i + 1 := by
  intro c hc k hk
  cases r with
  | error ex => rw [XorT.send_error_closed pr answer i request e s s' ex h] at hc; cases hc
  | ok v =>
    unfold XorT.send at h
    split at h
    · simp at h
    · next c0 hc0 =>
      split at h
      · simp at h
      · next v' c' hex =>
        simp only [Prod.mk.injEq, Except.ok.injEq] at h
        obtain ⟨rfl, rfl⟩ := h
        cases hc
        have hc0' : ∀ k ∈ c0.sent, k < i := by
          unfold XorT.connect at hc0
          split at hc0
          · next c1 h1 =>
            cases hc0
            exact hs _ h1
          · split at hc0
            · cases hc0
              intro k hk; cases hk
            · cases hc0
        have hsent : c.sent = c0.sent ++ [i] := by
          unfold XorT.executeSend at hex
          split at hex
          · cases hex
          · split at hex
            · cases hex
            · simp only at hex
              split at hex
              · cases hex
              · split at hex
                · cases hex
                · cases hex; rfl
        rw [hsent] at hk
        rcases List.mem_append.1 hk with hk | hk
        · exact Nat.lt_succ_of_lt (hc0' k hk)
        · rw [List.mem_singleton.1 hk]; exact Nat.lt_succ_self i

theorem getD_last (l : List Bytes) (b : Bytes) : (l ++ [b]).getD l.length [] = b := by simp [List.getD]

theorem short_next (w : World α) (hg : Good w) {b : Bytes} (hb : b.length < 2 ^ 32) (i : Nat) : ((w.answers ++ [b]).getD i []).length < 2 ^ 32 := by
  have h := hg.short i
  unfold World.answer at h
  by_cases h1 : i < w.answers.length
  · simpa [List.getD, List.getElem?_append_left h1] using h
  · by_cases h2 : i = w.answers.length
    · rw [h2, getD_last]; exact hb
    · have : (w.answers ++ [b])[i]? = none := by rw [List.getElem?_eq_none_iff]; simp; omega
      simp [List.getD, this]

theorem synced_next (w : World α) (hg : Good w) (b : Bytes) : XorT.Synced (fun i => (w.answers ++ [b]).getD i []) w.transport := by
  intro c hc
  rw [hg.synced c hc]
  refine congrArg List.length (stream_congr fun i hi => ?_)
  have h1 : i < w.answers.length := hg.old c hc i hi
  simp [World.answer, List.getD, List.getElem?_append_left h1]

/-- One request. -/
theorem send_step (hp : Answers lib' p) (j : Json) (hj : JsonText.Proper j) (w : World α) (hg : Good w) :
    ∃ res w', send lib lib' p x j w = (res, w') ∧ Good w' ∧ w'.log = w.log ++ [(j, res)] ∧ w'.count = w.count + 1 ∧
      ((∃ e, res = .error e ∧ (w'.state = w.state ∨ w'.state = (p.run j w.state).2)) ∨
        (res = .ok (p.run j w.state).1 ∧ w'.state = (p.run j w.state).2)) := by
  have hcar : carried x (utf8 (JsonText.dumps lib j)) w = none ∨ carried x (utf8 (JsonText.dumps lib j)) w = some j := by
    unfold carried
    split
    · exact .inl rfl
    · split
      · cases hE : Xor.encrypt (utf8 (JsonText.dumps lib j)) with
        | none => exact .inl rfl
        | some b => exact .inr (deviceReads_encrypt lib j hj hE)
      · exact .inl rfl
  have hr : (reaction lib' p x (utf8 (JsonText.dumps lib j)) w).1 = [] ∧
        (reaction lib' p x (utf8 (JsonText.dumps lib j)) w).2.1 = w.state ∨
      (reaction lib' p x (utf8 (JsonText.dumps lib j)) w).1 = utf8 (JsonText.dumps lib' (p.run j w.state).1) ∧
        (reaction lib' p x (utf8 (JsonText.dumps lib j)) w).2.1 = (p.run j w.state).2 := by
    unfold reaction
    rcases hcar with h | h
    · rw [h]; exact .inl ⟨rfl, rfl⟩
    · rw [h]; exact .inr ⟨rfl, rfl⟩
  dsimp only [send]
  generalize reaction lib' p x (utf8 (JsonText.dumps lib j)) w = r at hr ⊢
  have hlen : r.1.length < 2 ^ 32 := by
    rcases hr with h | h
    · rw [h.1]; decide
    · rw [h.1]; exact (hp j w.state).2
  have hshort := short_next w hg hlen
  have hsync := synced_next w hg r.1
  refine ⟨_, _, rfl, ⟨hshort, XorT.send_synced parse _ hshort w.count _ _ w.transport hsync,
      fun c hc k hk => by
        have := send_sent parse _ w.count _ _ w.transport _ _ rfl hg.old c hc k hk
        simpa [World.count] using this⟩,
    rfl, by simp [World.count], ?_⟩
  cases hS : XorT.send parse (fun i => (w.answers ++ [r.1]).getD i []) w.count (utf8 (JsonText.dumps lib j)) r.2.2
      w.transport with
  | mk o s' =>
  simp only [hS]
  cases o with
  | error e =>
    refine .inl ⟨e, rfl, ?_⟩
    rcases hr with h | h
    · exact .inl h.2
    · exact .inr h.2
  | ok v =>
    have hv := (XorT.send_ok parse _ hshort w.count _ _ w.transport s' hsync v hS).1
    simp only [World.count, getD_last] at hv
    rcases hr with h | h
    · rw [h.1] at hv
      have hn : parse [] = none := by decide +kernel
      rw [hn] at hv
      cases hv
    · rw [h.1] at hv
      simp only [parse, fromUtf8_utf8, Option.bind_some, JsonText.C70_round_trip lib' _ (hp j w.state).1, Option.some.injEq] at hv
      exact .inr ⟨by rw [hv], h.2⟩

theorem reset_good (w : World α) (hg : Good w) : Good (reset w).2 :=
  ⟨hg.short, fun _ hc => (nomatch hc), fun _ hc => (nomatch hc)⟩

theorem fresh_good (a : α) : Good (fresh a) := ⟨fun _ => (by decide : (0 : Nat) < 2 ^ 32), fun _ hc => (nomatch hc), fun _ hc => (nomatch hc)⟩

/-- **C76, histories.** Queries to a legacy device one after the other, with closes in between, whatever happens to the
connections: of all requests sent, each one that was answered was carried out exactly once and got the device's own answer;
each failed one was carried out at most once; in the order in which they were sent. -/
theorem C76_legacy_once (hp : Answers lib' p) (a : α) (ops : List Op) (hops : ∀ j rc, .query j rc ∈ ops → JsonText.Proper j) :
    Once p a (history lib lib' p x ops (fresh a)).log (history lib lib' p x ops (fresh a)).state := by
  let R : World α → World α → Prop := fun w w' => Good w → Good w' ∧ ∃ l, w'.log = w.log ++ l ∧ Once p w.state l w'.state
  have hrefl : ∀ w, R w w := fun w hg => ⟨hg, [], by simp, .nil _⟩
  have htrans : ∀ u v w, R u v → R v w → R u w := by
    intro u v w h1 h2 hg
    obtain ⟨g1, l1, e1, o1⟩ := h1 hg
    obtain ⟨g2, l2, e2, o2⟩ := h2 g1
    exact ⟨g2, l1 ++ l2, by rw [e2, e1, List.append_assoc], o1.append o2⟩
  have hreset : ∀ w, R w (reset w).2 := fun w hg => ⟨reset_good w hg, [], by simp [reset], .nil _⟩
  have hquery : ∀ j rc, JsonText.Proper j → Rel R (query lib lib' p x j rc) := by
    intro j rc hj
    refine Retry.loop_rel hrefl htrans false ⟨fun _ => send lib lib' p x j, reset, pure ()⟩ (fun _ => ?_) hreset hrefl rc _
    intro w hg
    obtain ⟨res, w', h1, h2, h3, -, h4⟩ := send_step lib lib' p x hp j hj w hg
    simp only [h1]
    refine ⟨h2, [(j, res)], h3, ?_⟩
    rcases h4 with ⟨e, rfl, h4 | h4⟩ | ⟨rfl, h4⟩
    · rw [h4]; exact .failed (.nil _)
    · rw [h4]; exact .unanswered (.nil _)
    · rw [h4]; exact .answered (.nil _)
  have key : ∀ (ops : List Op) (w : World α), (∀ j rc, .query j rc ∈ ops → JsonText.Proper j) → R w (history lib lib' p x ops w) := by
    intro ops
    induction ops with
    | nil => intro w _; exact hrefl w
    | cons op ops ih =>
      intro w hops
      cases op with
      | close => exact htrans _ _ _ (hreset w) (ih _ fun j rc h => hops j rc (.tail _ h))
      | query j rc => exact htrans _ _ _ (hquery j rc (hops j rc (.head _)) w) (ih _ fun j rc h => hops j rc (.tail _ h))
  obtain ⟨-, l, h1, h2⟩ := key ops (fresh a) hops (fresh_good a)
  rw [h1]
  exact h2

theorem history_good (hp : Answers lib' p) (ops : List Op) (hops : ∀ j rc, .query j rc ∈ ops → JsonText.Proper j) (w : World α)
    (hg : Good w) : Good (history lib lib' p x ops w) := by
  induction ops generalizing w with
  | nil => exact hg
  | cons op ops ih =>
    cases op with
    | close => exact ih (fun j rc h => hops j rc (.tail _ h)) _ (reset_good w hg)
    | query j rc =>
      refine ih (fun j rc h => hops j rc (.tail _ h)) _ ?_
      have : Rel (fun u v : World α => Good u → Good v) (query lib lib' p x j rc) := by
        refine Retry.loop_rel (R := fun u v : World α => Good u → Good v) (fun _ h => h) (fun _ _ _ h1 h2 h => h2 (h1 h)) false ⟨fun _ => send lib lib' p x j, reset, pure ()⟩ (fun _ => ?_) reset_good
          (fun _ h => h) rc _
        intro w hg
        obtain ⟨res, w', h1, h2, -⟩ := send_step lib lib' p x hp j (hops j rc (.head _)) w hg
        simp only [h1]
        exact h2
      exact this w hg

theorem times_succ (j : Json) (n : Nat) (a : α) : times p j (n + 1) a = times p j n (p.run j a).2 := by
  induction n with
  | zero => rfl
  | succ n ih => rw [times, ih, times]

/-- **C76, one query.** Whatever happened before and happens now: when a query with `rc` retries returns, the request has been
carried out between once and `rc + 1` times and the answer is the one to the last time; when it raises, it has been carried
out at most `rc + 1` times.  Nothing else has been carried out. -/
theorem C76_legacy_query (hp : Answers lib' p) (a : α) (ops : List Op) (hops : ∀ j rc, .query j rc ∈ ops → JsonText.Proper j) (j : Json)
    (hj : JsonText.Proper j) (rc : Nat) :
    let w := history lib lib' p x ops (fresh a)
    let out := query lib lib' p x j rc w
    (∀ v, out.1 = .ok v → ∃ k ≤ rc, v = (p.run j (times p j k w.state)).1 ∧ out.2.state = times p j (k + 1) w.state) ∧
      ∀ e, out.1 = .error e → ∃ k ≤ rc + 1, out.2.state = times p j k w.state := by
  intro w out
  have hg : Good w := history_good lib lib' p x hp ops hops _ (fresh_good a)
  have key : ∀ (l : List Nat) (w : World α), Good w →
      (∀ v, (Retry.loop false ⟨fun _ => send lib lib' p x j, reset, pure ()⟩ rc l w).1 = .ok v →
        ∃ k, k + 1 ≤ l.length ∧ v = (p.run j (times p j k w.state)).1 ∧
          (Retry.loop false ⟨fun _ => send lib lib' p x j, reset, pure ()⟩ rc l w).2.state = times p j (k + 1) w.state) ∧
      ∀ e, (Retry.loop false ⟨fun _ => send lib lib' p x j, reset, pure ()⟩ rc l w).1 = .error e →
        ∃ k ≤ l.length, (Retry.loop false ⟨fun _ => send lib lib' p x j, reset, pure ()⟩ rc l w).2.state = times p j k w.state := by
    intro l
    induction l with
    | nil =>
      intro w _
      exact ⟨fun v hv => (nomatch hv), fun e _ => ⟨0, Nat.le_refl _, rfl⟩⟩
    | cons n l ih =>
      intro w hg
      obtain ⟨res, w', h1, h2, -, -, h4⟩ := send_step lib lib' p x hp j hj w hg
      unfold Retry.loop tryExcept
      simp only [h1]
      rcases h4 with ⟨e, rfl, h4⟩ | ⟨rfl, h4⟩
      · simp only
        obtain ⟨k0, hk0, h4⟩ : ∃ k0 ≤ 1, w'.state = times p j k0 w.state := by
          rcases h4 with h4 | h4
          · exact ⟨0, by omega, h4⟩
          · exact ⟨1, by omega, h4⟩
        have tadd : ∀ k, times p j k (times p j k0 w.state) = times p j (k + k0) w.state := by
          intro k
          induction k with
          | zero => rw [Nat.zero_add]; rfl
          | succ k ihk => rw [Nat.succ_add, times, ihk, times]
        -- after this attempt
        have again : ∀ w2 : World α, Good w2 → w2.state = w'.state →
            (∀ v, (Retry.loop false ⟨fun _ => send lib lib' p x j, reset, pure ()⟩ rc l w2).1 = .ok v →
              ∃ k, k + 1 ≤ (n :: l).length ∧ v = (p.run j (times p j k w.state)).1 ∧
                (Retry.loop false ⟨fun _ => send lib lib' p x j, reset, pure ()⟩ rc l w2).2.state = times p j (k + 1) w.state) ∧
            ∀ e, (Retry.loop false ⟨fun _ => send lib lib' p x j, reset, pure ()⟩ rc l w2).1 = .error e →
              ∃ k ≤ (n :: l).length, (Retry.loop false ⟨fun _ => send lib lib' p x j, reset, pure ()⟩ rc l w2).2.state = times p j k w.state := by
          intro w2 hg2 hs2
          obtain ⟨i1, i2⟩ := ih w2 hg2
          constructor
          · intro v hv
            obtain ⟨k, b1, b2, b3⟩ := i1 v hv
            rw [hs2, h4, tadd] at b2 b3
            exact ⟨k + k0, by rw [List.length_cons]; omega, b2, by rw [b3]; congr 1; omega⟩
          · intro e he
            obtain ⟨k, b1, b2⟩ := i2 e he
            rw [hs2, h4, tadd] at b2
            exact ⟨k + k0, by rw [List.length_cons]; omega, b2⟩
        have stop : ∀ w2 : World α, w2.state = w'.state → ∃ k ≤ (n :: l).length, w2.state = times p j k w.state := by
          intro w2 hs2
          exact ⟨k0, by rw [List.length_cons]; omega, hs2.trans h4⟩
        have hr := reset_good w' h2
        cases e with
        | connection =>
          simp only
          split
          · exact ⟨fun v hv => (nomatch hv), fun e _ => stop w' rfl⟩
          · exact again w' h2 rfl
        | auth c => exact ⟨fun v hv => (nomatch hv), fun e _ => stop (reset w').2 rfl⟩
        | retryable c =>
          simp only [bind_apply, reset]
          split
          · exact ⟨fun v hv => (nomatch hv), fun e _ => stop (reset w').2 rfl⟩
          · exact again (reset w').2 hr rfl
        | timeout =>
          simp only [bind_apply, reset]
          split
          · exact ⟨fun v hv => (nomatch hv), fun e _ => stop (reset w').2 rfl⟩
          · exact again (reset w').2 hr rfl
        | kasa => exact ⟨fun v hv => (nomatch hv), fun e _ => stop (reset w').2 rfl⟩
        | unsupported => exact ⟨fun v hv => (nomatch hv), fun e _ => stop (reset w').2 rfl⟩
        | device c => exact ⟨fun v hv => (nomatch hv), fun e _ => stop (reset w').2 rfl⟩
        | other n => exact ⟨fun v hv => (nomatch hv), fun e _ => stop w' rfl⟩
        | base => exact ⟨fun v hv => (nomatch hv), fun e _ => stop w' rfl⟩
      · simp only
        refine ⟨fun v hv => ⟨0, by simp, ?_, h4⟩, fun e he => (nomatch he)⟩
        cases hv
        rfl
  obtain ⟨k1, k2⟩ := key (List.range ((rc : Int) + 1).toNat) w hg
  have hl : (List.range ((rc : Int) + 1).toNat).length = rc + 1 := by rw [List.length_range]; omega
  rw [hl] at k1 k2
  refine ⟨fun v hv => ?_, k2⟩
  obtain ⟨k, h1, h2⟩ := k1 v hv
  exact ⟨k, by omega, h2⟩

/-- **C76, setters.** A query that sets something, where asking twice is no different from asking once: when it returns, the
device is in the state asked for; when it raises, in that state or as it was. -/
theorem C76_setter (hp : Answers lib' p) (a : α) (ops : List Op) (hops : ∀ j rc, .query j rc ∈ ops → JsonText.Proper j) (j : Json)
    (hj : JsonText.Proper j) (rc : Nat) (hidem : ∀ a, (p.run j (p.run j a).2).2 = (p.run j a).2) :
    let w := history lib lib' p x ops (fresh a)
    let out := query lib lib' p x j rc w
    (∀ v, out.1 = .ok v → out.2.state = (p.run j w.state).2) ∧
      ∀ e, out.1 = .error e → out.2.state = w.state ∨ out.2.state = (p.run j w.state).2 := by
  intro w out
  obtain ⟨h1, h2⟩ := C76_legacy_query lib lib' p x hp a ops hops j hj rc
  have hone : ∀ k, times p j (k + 1) w.state = (p.run j w.state).2 := by
    intro k
    induction k with
    | zero => rfl
    | succ k ih => rw [times, ih, hidem]
  constructor
  · intro v hv
    obtain ⟨k, -, -, h⟩ := h1 v hv
    exact h.trans (hone k)
  · intro e he
    obtain ⟨k, -, h⟩ := h2 e he
    cases k with
    | zero => exact .inl h
    | succ k => exact .inr (h.trans (hone k))

/-- **C76, without failures.** When the connection works and the device answers, a query returns at the first attempt, the
request has been carried out exactly once, and the answer is the device's. -/
theorem C76_legacy_reliable (hp : Answers lib' p) (a : α) (ops : List Op) (hops : ∀ j rc, .query j rc ∈ ops → JsonText.Proper j) (j : Json)
    (hj : JsonText.Proper j) (hlen : (utf8 (JsonText.dumps lib j)).length < 2 ^ 32) (rc : Nat)
    (hc : (x.env (history lib lib' p x ops (fresh a)).count).connect = none)
    (hw : (x.env (history lib lib' p x ops (fresh a)).count).write = none)
    (hh : x.handled (history lib lib' p x ops (fresh a)).count = true)
    (harr : 4 + (utf8 (JsonText.dumps lib' (p.run j (history lib lib' p x ops (fresh a)).state).1)).length ≤
      (x.env (history lib lib' p x ops (fresh a)).count).arrived) :
    let w := history lib lib' p x ops (fresh a)
    let out := query lib lib' p x j rc w
    out.1 = .ok (p.run j w.state).1 ∧ out.2.state = (p.run j w.state).2 ∧ out.2.log = w.log ++ [(j, out.1)] := by
  intro w out
  have hg : Good w := history_good lib lib' p x hp ops hops _ (fresh_good a)
  obtain ⟨res, w', h1, h2, h3, -, h4⟩ := send_step lib lib' p x hp j hj w hg
  have hok : ∃ v, res = .ok v := by
    have hconn : ∃ c, XorT.connect (x.env w.count) w.transport = .ok c := by
      unfold XorT.connect
      split
      · exact ⟨_, rfl⟩
      · rw [hc]; exact ⟨_, rfl⟩
    obtain ⟨c0, hc0⟩ := hconn
    have henc := Xor.C01_encrypt_eq_frame _ hlen
    have hcar : carried x (utf8 (JsonText.dumps lib j)) w = some j := by
      unfold carried
      simp only [hc0, w, hh, if_true]
      rw [henc]
      exact deviceReads_encrypt lib j hj henc
    have hres : (send lib lib' p x j w).1 = res := by rw [h1]
    unfold send reaction at hres
    simp only [hcar] at hres
    have hsync := synced_next w hg (utf8 (JsonText.dumps lib' (p.run j w.state).1))
    have hshort := short_next w hg (hp j w.state).2
    obtain ⟨s', hS⟩ := XorT.send_calm parse (fun i => (w.answers ++ [utf8 (JsonText.dumps lib' (p.run j w.state).1)]).getD i [])
      hshort w.count (utf8 (JsonText.dumps lib j)) hlen (x.env w.count) hc hw w.transport hsync
      (by simp only [World.count, getD_last]
          have := (hp j w.state).2
          have hf : (XorSpec.frame (utf8 (JsonText.dumps lib' (p.run j w.state).1))).length = 4 + (utf8 (JsonText.dumps lib' (p.run j w.state).1)).length := by
            simp [XorSpec.frame, XorSpec.cipherBytes]; omega
          rw [hf]
          exact harr)
      (p.run j w.state).1
      (by simp only [World.count, getD_last, parse, fromUtf8_utf8, Option.bind_some, JsonText.C70_round_trip lib' _ (hp j w.state).1])
    rw [hS] at hres
    exact ⟨_, hres.symm⟩
  obtain ⟨v, rfl⟩ := hok
  rcases h4 with ⟨e, he, -⟩ | ⟨hv, hs⟩
  · cases he
  · cases hv
    have hloop : out = (.ok (p.run j w.state).1, w') := by
      show Retry.loop false _ rc (List.range ((rc : Int) + 1).toNat) w = _
      have : ((rc : Int) + 1).toNat = rc + 1 := by omega
      rw [this, List.range_succ_eq_map]
      unfold Retry.loop tryExcept
      simp only [h1]
    rw [hloop]
    exact ⟨rfl, hs, h3⟩

end

/-- A relay: `"toggle"` switches it over, `true` and `false` set it, anything else leaves it; the answer is the state before. -/
def relay : Program Bool where
  run j a := (.obj [("was", .bool a)], match j with | .str "toggle" => !a | .bool b => b | _ => a)

theorem relay_answers (lib : JsonText.Lib) : Answers lib relay := by
  intro j a
  refine ⟨by simp [relay, JsonText.Proper, JsonText.ProperKvs, Dict.WF, Dict.keys], ?_⟩
  show (utf8 (JsonText.dumps lib (.obj [("was", .bool a)]))).length < 2 ^ 32
  cases lib <;> cases a <;> decide +kernel

/-- The second request is carried out but its answer is cut off; the third finds no connection; the fourth is lost. -/
def sampleChance : Chance where
  env n := ⟨if n = 2 then some .timeout else none, if n = 3 then some (.os false) else none, if n = 1 then 3 else 100, [2, 1], .timeout, false⟩
  handled n := n ≠ 3

def sampleOps : List Op := [.query (.str "toggle") 0, .query (.str "toggle") 3, .close, .query (.str "toggle") 1]

theorem sampleOps_proper (j : Json) (rc : Int) (h : .query j rc ∈ sampleOps) : JsonText.Proper j := by
  simp only [sampleOps, List.mem_cons, Op.query.injEq, List.not_mem_nil, or_false, reduceCtorEq, false_or] at h
  rcases h with h | h | h <;> (rw [h.1]; simp [JsonText.Proper])

/-- The answer of the relay as it is sent. -/
def wasText (b : Bool) : Bytes := utf8 (JsonText.dumps .orjson (.obj [("was", .bool b)]))

def toggled (r : Except Exc Bool) : Json × Except Exc Json := (.str "toggle", r.map fun b => .obj [("was", .bool b)])

/-- After each of the three queries. -/
def world1 : World Bool := ⟨⟨some ⟨[0], 17⟩⟩, true, [wasText false], [toggled (.ok false)]⟩

def world2 : World Bool :=
  ⟨⟨some ⟨[4], 17⟩⟩, true, [wasText false, wasText true, [], [], wasText false],
    [toggled (.ok false), toggled (.error .timeout), toggled (.error .timeout), toggled (.error (.retryable none)), toggled (.ok false)]⟩

def world3 : World Bool :=
  ⟨⟨some ⟨[5], 16⟩⟩, false, world2.answers ++ [wasText true], world2.log ++ [toggled (.ok true)]⟩

deriving instance DecidableEq for World

theorem sample1 : (query .python .orjson relay sampleChance (.str "toggle") 0 (fresh false)).2 = world1 := by decide +kernel

/-- The attempts of the second query. -/
def world1a : World Bool :=
  ⟨⟨none⟩, false, [wasText false, wasText true], [toggled (.ok false), toggled (.error .timeout)]⟩

def world1b : World Bool :=
  ⟨⟨none⟩, false, [wasText false, wasText true, []], [toggled (.ok false), toggled (.error .timeout), toggled (.error .timeout)]⟩

def world1c : World Bool :=
  ⟨⟨none⟩, false, [wasText false, wasText true, [], []],
    [toggled (.ok false), toggled (.error .timeout), toggled (.error .timeout), toggled (.error (.retryable none))]⟩

theorem sample1a : send .python .orjson relay sampleChance (.str "toggle") world1 = (.error .timeout, world1a) := by decide +kernel

theorem sample1b : send .python .orjson relay sampleChance (.str "toggle") world1a = (.error .timeout, world1b) := by decide +kernel

theorem sample1c : send .python .orjson relay sampleChance (.str "toggle") world1b = (.error (.retryable none), world1c) := by
  decide +kernel

theorem sample1d : send .python .orjson relay sampleChance (.str "toggle") world1c = ((toggled (.ok false)).2, world2) := by decide +kernel

theorem sample2 : (query .python .orjson relay sampleChance (.str "toggle") 3 world1).2 = world2 := by
  have ra : reset world1a = (.ok (), world1a) := rfl
  have rb : reset world1b = (.ok (), world1b) := rfl
  have rc : reset world1c = (.ok (), world1c) := rfl
  have hl : List.range ((3 : Int) + 1).toNat = [0, 1, 2, 3] := by decide
  unfold query Retry.iotQuery
  rw [hl]
  simp [Retry.loop, tryExcept, sample1a, sample1b, sample1c, sample1d, bind_apply, ra, rb, rc, toggled, Except.map]

/-- After the close. -/
def world2' : World Bool := { world2 with transport := ⟨none⟩ }

theorem sample2a : send .python .orjson relay sampleChance (.str "toggle") world2' = ((toggled (.ok true)).2, world3) := by decide +kernel

theorem sample3 : (query .python .orjson relay sampleChance (.str "toggle") 1 (reset world2).2).2 = world3 := by
  have hl : List.range ((1 : Int) + 1).toNat = [0, 1] := by decide
  have hr : (reset world2).2 = world2' := rfl
  unfold query Retry.iotQuery
  rw [hl, hr]
  simp [Retry.loop, tryExcept, sample2a, toggled, Except.map]

/-- Three toggles asked for, six requests sent, four carried out: the second request was and was then asked for again. -/
theorem sample_history : history .python .orjson relay sampleChance sampleOps (fresh false) = world3 := by
  simp only [sampleOps, history, sample1, sample2, sample3]

example : Once relay false (history .python .orjson relay sampleChance sampleOps (fresh false)).log
    (history .python .orjson relay sampleChance sampleOps (fresh false)).state :=
  C76_legacy_once .python .orjson relay sampleChance (relay_answers _) false sampleOps sampleOps_proper

/-- A fifth request sets the relay. -/
def world4 : World Bool :=
  ⟨⟨some ⟨[5, 6], 33⟩⟩, true, world3.answers ++ [wasText false], world3.log ++ [(.bool true, .ok (.obj [("was", .bool false)]))]⟩

theorem sample4 : send .python .orjson relay sampleChance (.bool true) world3 = (.ok (.obj [("was", .bool false)]), world4) := by
  decide +kernel

theorem sample_query (rc : Nat) : (query .python .orjson relay sampleChance (.bool true) rc world3).1 = .ok (.obj [("was", .bool false)]) := by
  unfold query Retry.iotQuery
  have : ((rc : Int) + 1).toNat = rc + 1 := by omega
  rw [this, List.range_succ_eq_map]
  simp only [Retry.loop, tryExcept, sample4]

example : (query .python .orjson relay sampleChance (.bool true) (0 : Nat) world3).2.state = (relay.run (.bool true) world3.state).2 := by
  have h := C76_setter .python .orjson relay sampleChance (relay_answers _) false sampleOps sampleOps_proper (.bool true)
    (by simp [JsonText.Proper]) 0 (fun _ => rfl)
  simp only [sample_history] at h
  exact h.1 _ (sample_query 0)

/-- The hypotheses of `C76_legacy_reliable`. -/
example :
    let w := history .python .orjson relay sampleChance sampleOps (fresh false)
    let out := query .python .orjson relay sampleChance (.bool true) (2 : Nat) w
    out.1 = .ok (relay.run (.bool true) w.state).1 ∧ out.2.state = (relay.run (.bool true) w.state).2 ∧ out.2.log = w.log ++ [(.bool true, out.1)] :=
  C76_legacy_reliable .python .orjson relay sampleChance (relay_answers _) false sampleOps sampleOps_proper (.bool true)
    (by simp [JsonText.Proper]) (by decide +kernel) 2 (by rw [sample_history]; decide +kernel) (by rw [sample_history]; decide +kernel)
    (by rw [sample_history]; decide +kernel) (by rw [sample_history]; decide +kernel)

end Kasa.LegacyEndToEnd
