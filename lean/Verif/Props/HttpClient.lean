import Verif.Spec.HttpClient
/-!
# C42 and C58: the HTTP client
-/

namespace Kasa.Http

open HttpSpec

variable {parse : Bytes → Option Json}

theorem dur_nonneg (x : Rat) : 0 ≤ dur x := by unfold dur; split <;> grind

theorem pause_nonneg (c : Client) (now : Rat) : 0 ≤ pause c now := by
  unfold pause; split <;> (try split) <;> grind

theorem start_le_sendTime (c : Client) (t o : Rat) : t ≤ sendTime c t o := by
  unfold sendTime
  have := pause_nonneg c t
  have := dur_nonneg o
  split <;> grind

theorem sendTime_late {c : Client} (h : c.wait = interval) (t o : Rat) : c.last + interval ≤ sendTime c t o := by
  unfold sendTime pause
  have := dur_nonneg o
  have hi : interval ≠ 0 := by decide +kernel
  rw [h]
  simp only [hi, ne_eq, not_false_eq_true, if_true]
  split
  · split <;> grind
  · simp only [if_true]; grind

/-- What holds of the client, the clock and the requests sent so far. -/
structure Inv (s : St) : Prop where
  lastLe : s.client.last ≤ s.clock
  times : ∀ (i : Nat) (a : Sent), s.log[i]? = some a → a.at_ ≤ a.over ∧ a.over ≤ s.clock
  order : ∀ (i j : Nat) (a b : Sent), i < j → s.log[i]? = some a → s.log[j]? = some b → a.over ≤ b.at_
  waits : s.client.wait = 0 ∨ s.client.wait = interval
  trouble : ∀ (i : Nat) (a : Sent), s.log[i]? = some a → a.result = .error .connection → s.client.wait = interval
  calm : s.client.wait = interval → ∃ (i : Nat) (a : Sent), s.log[i]? = some a ∧ a.result = .error .connection
  since : ∀ (i : Nat) (a : Sent), s.log[i]? = some a → troubled s.log i → Settled a → a.over ≤ s.client.last
  spaced : ∀ (i j : Nat) (a b : Sent), i < j → s.log[i]? = some a → s.log[j]? = some b → troubled s.log i → Settled a →
    a.over + interval ≤ b.at_

theorem inv_init : Inv ({} : St) where
  lastLe := Rat.le_refl
  times := by intro i a h; cases h
  order := by intro i j a b _ h; cases h
  waits := .inl rfl
  trouble := by intro i a h; cases h
  calm := by intro h; exact absurd h (by decide +kernel)
  since := by intro i a h; cases h
  spaced := by intro i j a b _ h; cases h

theorem get_snoc {l : List Sent} {x a : Sent} {i : Nat} (h : (l ++ [x])[i]? = some a) :
    (l[i]? = some a ∧ i < l.length) ∨ (i = l.length ∧ a = x) := by
  by_cases hi : i < l.length
  · left; rw [List.getElem?_append_left hi] at h; exact ⟨h, hi⟩
  · right
    rw [List.getElem?_append_right (by omega)] at h
    cases hn : i - l.length with
    | zero => rw [hn] at h; refine ⟨by omega, ?_⟩; simp at h; exact h.symm
    | succ n => rw [hn] at h; cases h

theorem lt_of_get {l : List Sent} {a : Sent} {i : Nat} (h : l[i]? = some a) : i < l.length := by
  rcases Nat.lt_or_ge i l.length with h1 | h1
  · exact h1
  · rw [List.getElem?_eq_none h1] at h; cases h

theorem troubled_snoc {l : List Sent} {x : Sent} {i : Nat} (h : troubled (l ++ [x]) i) (hi : i < l.length) :
    troubled l i := by
  obtain ⟨k, hk, s, hs, hr⟩ := h
  refine ⟨k, hk, s, ?_, hr⟩
  rw [List.getElem?_append_left (by omega)] at hs
  exact hs

/-- What the end of an exchange does to the attributes, by what the caller is told. -/
theorem settle_facts (c : Client) (t : Rat) (r : Except Fault (Int × Body)) (hw : c.wait = 0 ∨ c.wait = interval) :
    (settle c t r).wait = (if outcome r = .error .connection then interval else c.wait) ∧
    (outcome r = .error .connection → (settle c t r).last = t) ∧
    (c.wait = interval → (∃ v, outcome r = .ok v) → (settle c t r).last = t) ∧
    ((settle c t r).last = t ∨ (settle c t r).last = c.last) := by
  have hi : interval ≠ 0 := by decide +kernel
  cases r with
  | ok v =>
    unfold settle outcome
    rcases hw with h | h
    · simp [h, hi, Ne.symm hi]
    · simp [h, hi]
  | error f =>
    cases f <;> unfold settle outcome raised <;> rcases hw with h | h <;> simp [h, hi, Ne.symm hi]

theorem post_inv {s : St} (c : Call) (h : Inv s) : Inv (post parse s c) := by
  have hidle := dur_nonneg c.idle
  have htook := dur_nonneg c.took
  unfold post
  simp only
  split
  · refine { h with times := ?_, lastLe := ?_ }
    · have := h.lastLe
      show s.client.last ≤ s.clock + dur c.idle
      grind
    intro i a ha
    obtain ⟨h1, h2⟩ := h.times i a ha
    refine ⟨h1, ?_⟩
    show a.over ≤ s.clock + dur c.idle
    grind
  · generalize hst : s.clock + dur c.idle = start
    generalize hse : sendTime s.client start c.over = sent
    generalize hr : decode parse c.wantJson c.answer = r
    have hs1 : start ≤ sent := by rw [← hse]; exact start_le_sendTime _ _ _
    have hs2 : s.client.wait = interval → s.client.last + interval ≤ sent := by
      intro hw; rw [← hse]; exact sendTime_late hw _ _
    obtain ⟨fw, fc, fo, fl⟩ := settle_facts s.client (sent + dur c.took) r h.waits
    have before : ∀ (i : Nat) (a : Sent), s.log[i]? = some a → a.over ≤ sent := by
      intro i a ha
      have := (h.times i a ha).2
      grind
    have waiting : ∀ i, troubled s.log i → s.client.wait = interval := by
      rintro i ⟨k, _, x, hx, hxr⟩
      exact h.trouble k x hx hxr
    refine ⟨?_, ?_, ?_, ?_, ?_, ?_, ?_, ?_⟩
    · show (settle s.client (sent + dur c.took) r).last ≤ sent + dur c.took
      have := h.lastLe
      rcases fl with e | e <;> rw [e] <;> grind
    · intro i a ha
      rcases get_snoc ha with ⟨ha, _⟩ | ⟨_, rfl⟩
      · have := (h.times i a ha).1
        have := before i a ha
        refine ⟨by assumption, ?_⟩
        show a.over ≤ sent + dur c.took
        grind
      · refine ⟨?_, ?_⟩
        · show sent ≤ sent + dur c.took; grind
        · show sent + dur c.took ≤ sent + dur c.took; grind
    · intro i j a b hij ha hb
      rcases get_snoc hb with ⟨hb, hj⟩ | ⟨hj, rfl⟩
      · rcases get_snoc ha with ⟨ha, _⟩ | ⟨hi, _⟩
        · exact h.order i j a b hij ha hb
        · omega
      · rcases get_snoc ha with ⟨ha, _⟩ | ⟨hi, _⟩
        · exact before i a ha
        · omega
    · show (settle s.client (sent + dur c.took) r).wait = 0 ∨ (settle s.client (sent + dur c.took) r).wait = interval
      rw [fw]
      split
      · exact .inr rfl
      · exact h.waits
    · intro i a ha hres
      show (settle s.client (sent + dur c.took) r).wait = interval
      rw [fw]
      rcases get_snoc ha with ⟨ha, _⟩ | ⟨_, rfl⟩
      · have := h.trouble i a ha hres
        split <;> first | rfl | exact this
      · rw [if_pos hres]
    · intro hw
      have hw : (settle s.client (sent + dur c.took) r).wait = interval := hw
      rw [fw] at hw
      by_cases hc : outcome r = .error .connection
      · exact ⟨s.log.length, _, List.getElem?_concat_length, hc⟩
      · rw [if_neg hc] at hw
        obtain ⟨i, a, ha, har⟩ := h.calm hw
        refine ⟨i, a, ?_, har⟩
        have := lt_of_get ha
        rw [List.getElem?_append_left this]
        exact ha
    · intro i a ha htr hset
      show a.over ≤ (settle s.client (sent + dur c.took) r).last
      rcases get_snoc ha with ⟨ha, hi⟩ | ⟨hi, rfl⟩
      · have h1 := h.since i a ha (troubled_snoc htr hi) hset
        have h2 := before i a ha
        rcases fl with e | e <;> rw [e]
        · grind
        · exact h1
      · rcases hset with hok | hcn
        · have hwt : s.client.wait = interval := by
            obtain ⟨k, hk, x, hx, hxr⟩ := htr
            rcases get_snoc hx with ⟨hx, _⟩ | ⟨_, rfl⟩
            · exact h.trouble k x hx hxr
            · obtain ⟨v, hv⟩ := hok
              rw [hv] at hxr; cases hxr
          rw [fo hwt hok]
          exact Rat.le_refl
        · rw [fc hcn]; exact Rat.le_refl
    · intro i j a b hij ha hb htr hset
      rcases get_snoc hb with ⟨hb, hj⟩ | ⟨hj, rfl⟩
      · rcases get_snoc ha with ⟨ha, hi⟩ | ⟨hi, _⟩
        · exact h.spaced i j a b hij ha hb (troubled_snoc htr hi) hset
        · omega
      · rcases get_snoc ha with ⟨ha, hi⟩ | ⟨hi, _⟩
        · have htr := troubled_snoc htr hi
          have h1 := h.since i a ha htr hset
          have h2 := hs2 (waiting i htr)
          show a.over + interval ≤ sent
          grind
        · omega

theorem foldl_inv (cs : List Call) : ∀ s, Inv s → Inv (cs.foldl (post parse) s) := by
  induction cs with
  | nil => intro s h; exact h
  | cons c cs ih => intro s h; exact ih _ (post_inv c h)

theorem history_inv (cs : List Call) : Inv (history parse cs) := foldl_inv cs _ inv_init

/-- C42: in every sequence of requests, a request that follows one which was answered, or ended with a connection
error, and by the end of which a connection error had been seen, is sent at least a quarter of a second after the end
of that one. -/
theorem C42_after_settled (cs : List Call) (i j : Nat) (a b : Sent) (hij : i < j)
    (ha : (history parse cs).log[i]? = some a) (hb : (history parse cs).log[j]? = some b)
    (ht : troubled (history parse cs).log i) (hs : Settled a) : a.over + quarter ≤ b.at_ :=
  (history_inv cs).spaced i j a b hij ha hb ht hs

/-- C42: any two requests, the earlier of which was sent after (or with) a connection error, are sent at least a
quarter of a second apart - if the earlier was answered, ended with a connection error, or took that long.  Partial:
a request that fails in another way, and fast, does not keep the next one back (`C42_unspaced`). -/
theorem C42_spaced_partial (cs : List Call) (i j : Nat) (a b : Sent) (hij : i < j)
    (ha : (history parse cs).log[i]? = some a) (hb : (history parse cs).log[j]? = some b)
    (ht : troubled (history parse cs).log i) (hs : Settled a ∨ quarter ≤ a.over - a.at_) : quarter ≤ b.at_ - a.at_ := by
  have h := history_inv (parse := parse) cs
  have h1 := (h.times i a ha).1
  have hq : 0 ≤ quarter := by decide +kernel
  rcases hs with hs | hs
  · have := C42_after_settled cs i j a b hij ha hb ht hs
    grind
  · have := h.order i j a b hij ha hb
    grind

/-- C42: as long as no connection error was seen, requests are not delayed: the next one is sent the moment it is
asked for. -/
theorem C42_no_delay (cs : List Call) (c : Call)
    (h : ∀ (i : Nat) (a : Sent), (history parse cs).log[i]? = some a → a.result ≠ .error .connection) :
    ∃ a, (history parse (cs ++ [c])).log = (history parse cs).log ++ [a] ∧
      a.at_ = (history parse cs).clock + dur c.idle := by
  have hw : (history parse cs).client.wait = 0 := by
    have hv := history_inv (parse := parse) cs
    rcases hv.waits with e | e
    · exact e
    · obtain ⟨i, a, ha, hr⟩ := hv.calm e
      exact absurd hr (h i a ha)
  have hp : ∀ t, pause (history parse cs).client t = 0 := by
    intro t; unfold pause; rw [hw]; simp
  have e : history parse (cs ++ [c]) = post parse (history parse cs) c := by
    unfold history; rw [List.foldl_append]; rfl
  rw [e]
  unfold post sendTime
  simp only [hp, ne_eq, not_true_eq_false, false_and, if_false, if_true]
  exact ⟨_, rfl, rfl⟩

/-- C42: the delay never exceeds the interval (apart from oversleeping): a request is sent at most a quarter of a
second after it is asked for. -/
theorem C42_delay_bound (cs : List Call) (c : Call) (a : Sent)
    (h : (history parse (cs ++ [c])).log = (history parse cs).log ++ [a]) :
    a.at_ ≤ (history parse cs).clock + dur c.idle + quarter + dur c.over := by
  have hv := history_inv (parse := parse) cs
  have e : history parse (cs ++ [c]) = post parse (history parse cs) c := by
    unfold history; rw [List.foldl_append]; rfl
  rw [e] at h
  have ho := dur_nonneg c.over
  have hd := dur_nonneg c.idle
  have hq : (0 : Rat) ≤ interval := by decide +kernel
  have hqq : quarter = interval := rfl
  unfold post at h
  simp only at h
  split at h
  · have := congrArg List.length h
    simp at this
  · have := List.append_cancel_left h
    injection this with this _
    rw [← this]
    have hl := hv.lastLe
    show sendTime _ _ _ ≤ _
    unfold sendTime pause
    rw [hqq]
    rcases hv.waits with e | e <;> rw [e]
    · simp; grind
    · have hi : interval ≠ 0 := by decide +kernel
      simp only [hi, ne_eq, not_false_eq_true, if_true]
      split
      · split <;> grind
      · simp only [if_true]; grind

namespace Example

/-- Answers are never JSON. -/
def noJson : Bytes → Option Json := fun _ => none

/-- The first request breaks, the second is answered with something that is no JSON, the third is sent. -/
def calls : List Call :=
  [{ idle := 1, took := 1, answer := .error .osError },
   { idle := 0, took := 1 / 100, answer := .ok (200, [1]) },
   { idle := 0, took := 1 / 100, wantJson := false, answer := .ok (200, []) },
   { idle := 0, took := 1 / 100, wantJson := false, answer := .ok (200, []) }]

/-- When those requests are sent: the second waits, the third does not, the fourth waits for the rest. -/
example : (history noJson calls).log.map (·.at_) = [1, 9 / 4, 226 / 100, 227 / 100 + 1 / 4] := by decide +kernel

end Example

/-- C42, the claim itself, is false: after a connection error, a request whose answer cannot be decoded is followed at
once by the next request. -/
theorem C42_unspaced : ∃ (cs : List Call) (a b : Sent), (history Example.noJson cs).log[1]? = some a ∧
    (history Example.noJson cs).log[2]? = some b ∧ troubled (history Example.noJson cs).log 0 ∧
    b.at_ - a.at_ < quarter := by
  refine ⟨Example.calls, ⟨9 / 4, 226 / 100, .error .kasa⟩, ⟨226 / 100, 227 / 100, .ok (200, .raw [])⟩,
    by decide +kernel, by decide +kernel, ⟨0, Nat.le_refl _, ⟨1, 2, .error .connection⟩, by decide +kernel, rfl⟩,
    by decide +kernel⟩

/-- The hypotheses of `C42_spaced_partial` hold of the third and the fourth request there. -/
example : ∃ a b, (history Example.noJson Example.calls).log[2]? = some a ∧
    (history Example.noJson Example.calls).log[3]? = some b ∧ troubled (history Example.noJson Example.calls).log 2 ∧
    Settled a :=
  ⟨⟨226 / 100, 227 / 100, .ok (200, .raw [])⟩, ⟨252 / 100, 253 / 100, .ok (200, .raw [])⟩, by decide +kernel,
    by decide +kernel, ⟨0, by decide, ⟨1, 2, .error .connection⟩, by decide +kernel, rfl⟩, .inl ⟨_, rfl⟩⟩

/-! ## C58: what a caller is told -/

/-- C58: a call that was sent ends with the status and the body, decoded if and only if the request was JSON, the body
is not empty (or the status is 200) and it can be decoded; or with the library's own exception.  Only a body of a
status 200 that should be JSON and is not makes an answer an error. -/
theorem C58_answer (want : Bool) (status : Int) (b : Bytes) :
    outcome (decode parse want (.ok (status, b))) =
      if want = true ∧ (status = 200 ∨ b ≠ []) then
        match parse b with
        | some j => .ok (status, .json j)
        | none => if status = 200 then .error .kasa else .ok (status, .raw b)
      else .ok (status, .raw b) := by
  unfold decode
  cases want with
  | false => by_cases h : status = 200 <;> simp [h, outcome]
  | true =>
    by_cases h : status = 200
    · simp only [h, if_true, true_or, and_self]
      cases parse b <;> rfl
    · simp only [h, if_false, false_or, true_and]
      cases b with
      | nil => simp [outcome]
      | cons x xs =>
        simp only [List.isEmpty_cons, Bool.not_false, Bool.and_self, if_true, ne_eq, reduceCtorEq, not_false_eq_true]
        cases parse (x :: xs) <;> rfl

/-- C58: whatever goes wrong short of cancellation, the caller gets the library's own exception. -/
theorem C58_own_exceptions (want : Bool) (a : Answer) (e : Exc) (h : outcome (decode parse want a) = .error e) :
    e.isKasa = true ∨ (e = .base ∧ a = .error .cancelled) := by
  cases a with
  | error f =>
    have h : Except.error (raised f) = (Except.error e : Except Exc (Int × Body)) := h
    injection h with h
    subst h
    cases f <;> first | exact .inl rfl | exact .inr ⟨rfl, rfl⟩
  | ok r =>
    obtain ⟨status, b⟩ := r
    left
    rw [C58_answer] at h
    split at h
    · split at h
      · cases h
      · split at h
        · cases h; rfl
        · cases h
    · cases h

/-- C58: broken connections are connection errors, the limits for connecting and for single reads are time-outs,
everything else is the library's general exception.  Partial: the limit for the whole request is not among them
(`C58_timeout_missed`). -/
theorem C58_kinds_partial (want : Bool) (f : Fault) (h : f ≠ .totalTimeout) :
    outcome (decode parse want (.error f)) = .error (told f) := by
  cases f <;> first | rfl | exact absurd rfl h

/-- C58 is false of the limit for the whole request, the only one the client sets: when it passes, the caller is not
told that the request timed out. -/
theorem C58_timeout_missed (want : Bool) :
    outcome (decode parse want (.error .totalTimeout)) = .error .kasa ∧ told .totalTimeout = .timeout := ⟨rfl, rfl⟩

end Kasa.Http
