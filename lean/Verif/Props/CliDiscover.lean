import Verif.Spec.CliDiscover
import Verif.Props.Redact
import Verif.Props.DiscoverTasks
/-!
# C98: what `discover` prints
-/

namespace Kasa.CliDiscover
open CliDiscoverSpec

/-! ## The tasks by their phase -/

def isOver : Piece × Phase → Option Piece
  | (p, .over) => some p
  | _ => none

def isWaiting : Piece × Phase → Option Piece
  | (p, .waiting) => some p
  | _ => none

def isHolding : Piece × Phase → Option (Piece × Lines)
  | (p, .holding r) => some (p, r)
  | _ => none

theorem at_split {α : Type} : ∀ (ts : List α) (i : Nat) (x : α), ts[i]? = some x →
    ∃ l1 l2, ts = l1 ++ x :: l2 ∧ ∀ y, ts.set i y = l1 ++ y :: l2
  | [], _, _, h => by simp at h
  | t :: ts, 0, x, h => by
    simp only [List.getElem?_cons_zero, Option.some.injEq] at h
    subst h
    exact ⟨[], ts, rfl, fun _ => rfl⟩
  | t :: ts, i + 1, x, h => by
    simp only [List.getElem?_cons_succ] at h
    obtain ⟨l1, l2, h1, h2⟩ := at_split ts i x h
    exact ⟨t :: l1, l2, by rw [h1]; rfl, fun y => by rw [List.set_cons_succ, h2]; rfl⟩

theorem phases (ts : List (Piece × Phase)) :
    (ts.filterMap isOver ++ ((ts.filterMap isHolding).map Prod.fst ++ ts.filterMap isWaiting)).Perm (ts.map Prod.fst) := by
  induction ts with
  | nil => exact .refl _
  | cons t ts ih =>
    obtain ⟨p, ph⟩ := t
    cases ph with
    | over => exact ih.cons p
    | holding r =>
      simp only [List.filterMap_cons, isOver, isHolding, isWaiting, List.map_cons]
      exact (List.perm_middle (a := p)).trans (ih.cons p)
    | waiting =>
      simp only [List.filterMap_cons, isOver, isHolding, isWaiting, List.map_cons]
      rw [← List.append_assoc]
      refine (List.perm_middle (a := p)).trans (List.Perm.cons p ?_)
      rw [List.append_assoc]
      exact ih

/-- What holds after every schedule. -/
structure Inv (pieces : List Piece) (out : Lines) (s : Sys) : Prop where
  same : s.tasks.map Prod.fst = pieces
  done : ∃ order : List Piece, order.Perm (s.tasks.filterMap isOver) ∧
    ((s.free = true ∧ s.tasks.filterMap isHolding = [] ∧ s.out = out ++ order.flatMap Piece.lines) ∨
     ∃ p begun rest, s.free = false ∧ s.tasks.filterMap isHolding = [(p, rest)] ∧ p.lines = begun ++ rest ∧
       s.out = out ++ (order.flatMap Piece.lines ++ begun))

theorem inv_start (pieces : List Piece) (out : Lines) : Inv pieces out (start pieces out) := by
  have h1 : ∀ ps : List Piece, (ps.map fun p => (p, Phase.waiting)).filterMap isOver = [] := by
    intro ps; induction ps with
    | nil => rfl
    | cons p ps ih => exact ih
  have h2 : ∀ ps : List Piece, (ps.map fun p => (p, Phase.waiting)).filterMap isHolding = [] := by
    intro ps; induction ps with
    | nil => rfl
    | cons p ps ih => exact ih
  have h3 : ∀ ps : List Piece, (ps.map fun p => (p, Phase.waiting)).map Prod.fst = ps := by
    intro ps; induction ps with
    | nil => rfl
    | cons p ps ih => rw [List.map_cons, List.map_cons, ih]
  refine ⟨h3 _, [], ?_, .inl ⟨rfl, h2 _, ?_⟩⟩
  · unfold start
    rw [h1]
  · exact (List.append_nil _).symm

theorem inv_step {pieces : List Piece} {out : Lines} {s : Sys} (h : Inv pieces out s) (i : Nat) : Inv pieces out (step s i) := by
  unfold step
  cases hi : s.tasks[i]? with
  | none => exact h
  | some t =>
    obtain ⟨p, ph⟩ := t
    obtain ⟨l1, l2, e1, e2⟩ := at_split _ _ _ hi
    obtain ⟨hsame, order, hperm, hc⟩ := h
    have same : ∀ ph', (s.tasks.set i (p, ph')).map Prod.fst = pieces := by
      intro ph'
      rw [e2, ← hsame, e1]
      simp
    cases ph with
    | over => exact ⟨hsame, order, hperm, hc⟩
    | waiting =>
      simp only
      split
      · rename_i hf
        refine ⟨same _, order, ?_, .inr ⟨p, [], p.lines, rfl, ?_, rfl, ?_⟩⟩
        · rw [e2]
          rw [e1] at hperm
          simpa only [List.filterMap_append, List.filterMap_cons, isOver] using hperm
        · rcases hc with ⟨_, hh, _⟩ | ⟨_, _, _, hff, _⟩
          · rw [e1] at hh
            simp only [List.filterMap_append, List.filterMap_cons, isHolding, List.append_eq_nil_iff] at hh
            rw [e2]
            simp only [List.filterMap_append, List.filterMap_cons, isHolding, hh.1, hh.2, List.nil_append]
          · rw [hf] at hff; cases hff
        · rcases hc with ⟨_, _, ho⟩ | ⟨_, _, _, hff, _⟩
          · simpa using ho
          · rw [hf] at hff; cases hff
      · exact ⟨hsame, order, hperm, hc⟩
    | holding rest =>
      -- this task is the one that holds the semaphore
      rcases hc with ⟨_, hh, _⟩ | ⟨p', begun, rest', hf, hh, hl, ho⟩
      · rw [e1] at hh
        simp [isHolding] at hh
      · rw [e1] at hh
        simp only [List.filterMap_append, List.filterMap_cons, isHolding] at hh
        have hn : l1.filterMap isHolding = [] ∧ l2.filterMap isHolding = [] ∧ (p, rest) = (p', rest') := by
          cases h1 : l1.filterMap isHolding with
          | nil =>
            rw [h1] at hh
            simp only [List.nil_append, List.cons.injEq] at hh
            exact ⟨rfl, hh.2, hh.1⟩
          | cons a b =>
            rw [h1] at hh
            simp at hh
        obtain ⟨hn1, hn2, he⟩ := hn
        cases he
        cases rest with
        | nil =>
          refine ⟨same _, order ++ [p], ?_, .inl ⟨rfl, ?_, ?_⟩⟩
          · simp only
            rw [e2]
            rw [e1] at hperm
            simp only [List.filterMap_append, List.filterMap_cons, isOver] at hperm ⊢
            exact (hperm.append_right [p]).trans (by
              rw [List.append_assoc]
              exact List.Perm.append_left _ List.perm_append_comm)
          · simp only
            rw [e2]
            simp only [List.filterMap_append, List.filterMap_cons, isHolding, hn1, hn2, List.append_nil]
          · simp only
            rw [ho, List.flatMap_append]
            simp [hl]
        | cons l rest =>
          refine ⟨same _, order, ?_, .inr ⟨p, begun ++ [l], rest, hf, ?_, ?_, ?_⟩⟩
          · simp only
            rw [e2]
            rw [e1] at hperm
            simpa only [List.filterMap_append, List.filterMap_cons, isOver] using hperm
          · simp only
            rw [e2]
            simp only [List.filterMap_append, List.filterMap_cons, isHolding, hn1, hn2, List.nil_append]
          · rw [hl, List.append_assoc]; rfl
          · simp only
            rw [ho]
            simp only [List.append_assoc]

theorem inv_run {pieces : List Piece} {out : Lines} : ∀ (schedule : List Nat) (s : Sys), Inv pieces out s → Inv pieces out (run s schedule)
  | [], _, h => h
  | i :: is, _, h => inv_run is _ (inv_step h i)

/-- **C98, in one piece.** When all callbacks are over, what they printed stands in one piece for each, whatever the schedule. -/
theorem C98_whole (pieces : List Piece) (out : Lines) (schedule : List Nat) (h : AllOver (run (start pieces out) schedule)) :
    ∃ lines, (run (start pieces out) schedule).out = out ++ lines ∧ Whole pieces lines := by
  have hi := inv_run schedule _ (inv_start pieces out)
  generalize run (start pieces out) schedule = s at h hi
  obtain ⟨hsame, order, hperm, hc⟩ := hi
  have none : ∀ ts : List (Piece × Phase), (∀ t ∈ ts, t.2 = .over) → ts.filterMap isHolding = [] ∧ ts.filterMap isOver = ts.map Prod.fst := by
    intro ts
    induction ts with
    | nil => exact fun _ => ⟨rfl, rfl⟩
    | cons t ts ih =>
      intro ht
      obtain ⟨p, ph⟩ := t
      have : ph = .over := ht _ List.mem_cons_self
      subst this
      obtain ⟨i1, i2⟩ := ih fun x hx => ht x (List.mem_cons_of_mem _ hx)
      exact ⟨i1, by simp only [List.filterMap_cons, isOver, i2, List.map_cons]⟩
  obtain ⟨n1, n2⟩ := none _ h
  rcases hc with ⟨_, _, ho⟩ | ⟨p, begun, rest, _, hh, _⟩
  · refine ⟨_, ho, order, ?_, rfl⟩
    rw [n2, hsame] at hperm
    exact hperm
  · rw [n1] at hh
    cases hh

/-- **C98, so far.** At every moment of every schedule at most one piece has begun that is not whole, and it is the last. -/
theorem C98_so_far (pieces : List Piece) (out : Lines) (schedule : List Nat) :
    ∃ lines, (run (start pieces out) schedule).out = out ++ lines ∧ SoFar pieces lines := by
  have hi := inv_run schedule _ (inv_start pieces out)
  generalize run (start pieces out) schedule = s at hi
  obtain ⟨hsame, order, hperm, hc⟩ := hi
  have hp := phases s.tasks
  rw [hsame] at hp
  rcases hc with ⟨_, hh, ho⟩ | ⟨p, begun, rest, _, hh, hl, ho⟩
  · refine ⟨_, ho, order, s.tasks.filterMap isWaiting, [], (List.append_nil _).symm, .inl ⟨?_, rfl⟩⟩
    rw [hh] at hp
    exact (hperm.append_right _).trans hp
  · refine ⟨_, ho, order, s.tasks.filterMap isWaiting, begun, rfl, .inr ⟨p, rest, ?_, hl⟩⟩
    rw [hh] at hp
    exact (hperm.append_right _).trans hp

/-! ## The tasks end -/

/-- The steps a task still has to do. -/
def left : Piece × Phase → Nat
  | (p, .waiting) => p.lines.length + 2
  | (_, .holding r) => r.length + 1
  | (_, .over) => 0

def todo (s : Sys) : Nat := (s.tasks.map left).sum

/-- **C98, the end.** A step does nothing or brings the end nearer by one, and unless all callbacks are over there is one that does: no schedule
makes them wait for each other for ever. -/
theorem C98_ends (pieces : List Piece) (out : Lines) (schedule : List Nat) :
    (∀ i, step (run (start pieces out) schedule) i = run (start pieces out) schedule ∨
      todo (step (run (start pieces out) schedule) i) + 1 = todo (run (start pieces out) schedule)) ∧
    (¬ AllOver (run (start pieces out) schedule) →
      ∃ i, todo (step (run (start pieces out) schedule) i) + 1 = todo (run (start pieces out) schedule)) := by
  have hi := inv_run schedule _ (inv_start pieces out)
  generalize run (start pieces out) schedule = s at hi
  have count : ∀ (i : Nat) (x y : Piece × Phase), s.tasks[i]? = some x → ((s.tasks.set i y).map left).sum + left x = todo s + left y := by
    intro i x y hx
    obtain ⟨l1, l2, e1, e2⟩ := at_split _ _ _ hx
    unfold todo
    rw [e2, e1]
    simp only [List.map_append, List.map_cons, List.sum_append, List.sum_cons]
    omega
  refine ⟨fun i => ?_, fun hn => ?_⟩
  · unfold step
    cases hx : s.tasks[i]? with
    | none => exact .inl rfl
    | some t =>
      obtain ⟨p, ph⟩ := t
      cases ph with
      | over => exact .inl rfl
      | waiting =>
        simp only
        split
        · refine .inr ?_
          have := count i _ (p, .holding p.lines) hx
          simp only [left] at this
          unfold todo
          simp only
          unfold todo at this
          omega
        · exact .inl rfl
      | holding r =>
        cases r with
        | nil =>
          refine .inr ?_
          have := count i _ (p, .over) hx
          simp only [left, List.length_nil] at this
          unfold todo
          simp only
          unfold todo at this
          omega
        | cons l r =>
          refine .inr ?_
          have := count i _ (p, .holding r) hx
          simp only [left, List.length_cons] at this
          unfold todo
          simp only
          unfold todo at this
          omega
  · have find : ∀ t ∈ s.tasks, ∃ i, s.tasks[i]? = some t := fun t ht => List.mem_iff_getElem?.1 ht
    obtain ⟨_, order, _, hc⟩ := hi
    rcases hc with ⟨hf, hh, _⟩ | ⟨p, begun, rest, _, hh, _⟩
    · have : ∃ t ∈ s.tasks, t.2 ≠ .over := by
        apply Classical.byContradiction
        intro hx
        exact hn fun t ht => Classical.byContradiction fun h2 => hx ⟨t, ht, h2⟩
      obtain ⟨⟨p, ph⟩, ht, hne⟩ := this
      cases ph with
      | over => exact absurd rfl hne
      | holding r =>
        have : (p, r) ∈ s.tasks.filterMap isHolding := List.mem_filterMap.2 ⟨_, ht, rfl⟩
        rw [hh] at this
        cases this
      | waiting =>
        obtain ⟨i, hx⟩ := find _ ht
        refine ⟨i, ?_⟩
        have := count i _ (p, .holding p.lines) hx
        simp only [left] at this
        unfold step
        simp only [hx, hf, if_true]
        unfold todo at this ⊢
        simp only
        omega
    · have : (p, rest) ∈ s.tasks.filterMap isHolding := by rw [hh]; exact List.mem_cons_self
      obtain ⟨⟨q, ph⟩, ht, he⟩ := List.mem_filterMap.1 this
      cases ph with
      | over => cases he
      | waiting => cases he
      | holding r =>
        obtain ⟨i, hx⟩ := find _ ht
        refine ⟨i, ?_⟩
        unfold step
        simp only [hx]
        cases r with
        | nil =>
          have := count i _ (q, .over) hx
          simp only [left, List.length_nil] at this
          unfold todo at this ⊢
          simp only
          omega
        | cons l r =>
          have := count i _ (q, .holding r) hx
          simp only [left, List.length_cons] at this
          unfold todo at this ⊢
          simp only
          omega

/-! ## `list` -/

/-- **C98, the table.** Whatever the update of a device raises, short of an interruption, the device has one line, and its callback ends well; the
line begins with what discovery told. -/
theorem C98_list (text : Exc → String) (c : Columns) (update : Except Exc Unit) (alias : String)
    (hu : ∀ e, update = .error e → e.isException = true) :
    ∃ s, listDevice text c update (.ok alias) = ⟨[infostr c ++ s], .ok ()⟩ ∧
      (∀ u, update = .ok u → s = " " ++ alias) ∧ (∀ code, update = .error (.auth code) → s = " - Authentication failed") ∧
      (update = .error .timeout → s = " - Timed out") ∧ (∀ code, update = .error (.device code) → s = " - Error: " ++ text (.device code)) ∧
      (update = .error .kasa → s = " - Error: " ++ text .kasa) := by
  unfold listDevice
  generalize infostr c = I
  cases update with
  | ok u => exact ⟨" " ++ alias, by simp only [String.append_assoc], fun _ _ => rfl, fun _ h => (by cases h), fun h => (by cases h), fun _ h => (by cases h), fun h => (by cases h)⟩
  | error e =>
    have hx := hu e rfl
    have other : ∀ e : Exc, e.isException = true → e ≠ .other "TimeoutError" →
        (if e = .other "TimeoutError" then (⟨[I ++ " - Timed out"], .ok ()⟩ : Piece)
          else if e.isException then ⟨[I ++ " - Error: " ++ text e], .ok ()⟩ else ⟨[], .error e⟩) = ⟨[I ++ (" - Error: " ++ text e)], .ok ()⟩ := by
      intro e h1 h2
      rw [if_neg h2, if_pos h1, String.append_assoc]
    cases e with
    | auth code => exact ⟨" - Authentication failed", rfl, fun _ h => (by cases h), fun _ _ => rfl, fun h => (by cases h), fun _ h => (by cases h), fun h => (by cases h)⟩
    | timeout => exact ⟨" - Timed out", rfl, fun _ h => (by cases h), fun _ h => (by cases h), fun _ => rfl, fun _ h => (by cases h), fun h => (by cases h)⟩
    | kasa => exact ⟨_, other _ hx (by decide), fun _ h => (by cases h), fun _ h => (by cases h), fun h => (by cases h), fun _ h => (by cases h), fun _ => rfl⟩
    | device code => exact ⟨_, other _ hx (by simp), fun _ h => (by cases h), fun _ h => (by cases h), fun h => (by cases h), fun _ h => (by cases h; rfl), fun h => (by cases h)⟩
    | connection => exact ⟨_, other _ hx (by simp), fun _ h => (by cases h), fun _ h => (by cases h), fun h => (by cases h), fun _ h => (by cases h), fun h => (by cases h)⟩
    | unsupported => exact ⟨_, other _ hx (by simp), fun _ h => (by cases h), fun _ h => (by cases h), fun h => (by cases h), fun _ h => (by cases h), fun h => (by cases h)⟩
    | retryable code => exact ⟨_, other _ hx (by simp), fun _ h => (by cases h), fun _ h => (by cases h), fun h => (by cases h), fun _ h => (by cases h), fun h => (by cases h)⟩
    | other name =>
      by_cases hn : name = "TimeoutError"
      · exact ⟨" - Timed out", by rw [hn]; exact if_pos rfl, fun _ h => (by cases h), fun _ h => (by cases h), fun h => (by cases h), fun _ h => (by cases h), fun h => (by cases h)⟩
      · exact ⟨_, other _ hx (fun h => hn (Exc.other.inj h)), fun _ h => (by cases h), fun _ h => (by cases h), fun h => (by cases h), fun _ h => (by cases h), fun h => (by cases h)⟩
    | base => cases hx

theorem pad_length (n : Nat) (s : String) (h : s.length ≤ n) : (pad n s).length = n := by
  unfold pad
  rw [String.length_append, String.length_ofList, List.length_replicate]
  omega

theorem at_pad (before s after : String) (n k : Nat) (h : before.length = k) : At (before ++ pad n s ++ after) k s := by
  refine ⟨before, String.ofList (List.replicate (n - s.length) ' ') ++ after, ?_, h⟩
  unfold pad
  simp only [String.append_assoc]

/-- **C98, the columns.** Host, model, family, encryption, https and login version stand below their headings, unless one of them is longer than its
column. -/
theorem C98_columns (c : Columns) (h1 : c.host.length ≤ 15) (h2 : c.model.length ≤ 9) (h3 : c.family.length ≤ 20) (h4 : c.encryption.length ≤ 7) :
    At (infostr c) 0 c.host ∧ At (infostr c) 16 c.model ∧ At (infostr c) 26 c.family ∧ At (infostr c) 47 c.encryption ∧
    At (infostr c) 55 (if c.https then "1" else "0") ∧ (∀ n, c.loginVersion = some n → n ≠ 0 → At (infostr c) 61 (toString n)) ∧
    (c.loginVersion = none ∨ c.loginVersion = some 0 → At (infostr c) 61 "-") ∧
    At tableHead 0 "HOST" ∧ At tableHead 16 "MODEL" ∧ At tableHead 26 "DEVICE FAMILY" ∧ At tableHead 47 "ENCRYPT" ∧ At tableHead 55 "HTTPS" ∧
    At tableHead 61 "LV" ∧ At tableHead 65 "ALIAS" := by
  have p1 := pad_length 15 c.host h1
  have p2 := pad_length 9 c.model h2
  have p3 := pad_length 20 c.family h3
  have p4 := pad_length 7 c.encryption h4
  have p5 : (pad 5 (if c.https then "1" else "0")).length = 5 := pad_length 5 _ (by cases c.https <;> decide)
  have sp : " ".length = 1 := rfl
  have hl : At (infostr c) 61 (loginText c.loginVersion) := by
    have := at_pad (pad 15 c.host ++ " " ++ pad 9 c.model ++ " " ++ pad 20 c.family ++ " " ++ pad 7 c.encryption ++ " " ++
      pad 5 (if c.https then "1" else "0") ++ " ") (loginText c.loginVersion) "" 3 61
      (by simp only [String.length_append, p1, p2, p3, p4, p5, sp])
    simpa only [infostr, String.append_assoc, String.append_empty] using this
  refine ⟨?_, ?_, ?_, ?_, ?_, ?_, ?_, ?_, ?_, ?_, ?_, ?_, ?_, ?_⟩
  · have := at_pad "" c.host (" " ++ pad 9 c.model ++ " " ++ pad 20 c.family ++ " " ++ pad 7 c.encryption ++ " " ++ pad 5 (if c.https then "1" else "0") ++
      " " ++ pad 3 (loginText c.loginVersion)) 15 0 rfl
    simpa only [infostr, String.append_assoc, String.empty_append] using this
  · have := at_pad (pad 15 c.host ++ " ") c.model (" " ++ pad 20 c.family ++ " " ++ pad 7 c.encryption ++ " " ++
      pad 5 (if c.https then "1" else "0") ++ " " ++ pad 3 (loginText c.loginVersion)) 9 16
      (by rw [String.length_append, p1, sp])
    simpa only [infostr, String.append_assoc] using this
  · have := at_pad (pad 15 c.host ++ " " ++ pad 9 c.model ++ " ") c.family (" " ++ pad 7 c.encryption ++ " " ++
      pad 5 (if c.https then "1" else "0") ++ " " ++ pad 3 (loginText c.loginVersion)) 20 26
      (by simp only [String.length_append, p1, p2, sp])
    simpa only [infostr, String.append_assoc] using this
  · have := at_pad (pad 15 c.host ++ " " ++ pad 9 c.model ++ " " ++ pad 20 c.family ++ " ") c.encryption (" " ++
      pad 5 (if c.https then "1" else "0") ++ " " ++ pad 3 (loginText c.loginVersion)) 7 47
      (by simp only [String.length_append, p1, p2, p3, sp])
    simpa only [infostr, String.append_assoc] using this
  · have := at_pad (pad 15 c.host ++ " " ++ pad 9 c.model ++ " " ++ pad 20 c.family ++ " " ++ pad 7 c.encryption ++ " ")
      (if c.https then "1" else "0") (" " ++ pad 3 (loginText c.loginVersion)) 5 55
      (by simp only [String.length_append, p1, p2, p3, p4, sp])
    simpa only [infostr, String.append_assoc] using this
  · intro n hn h0
    rw [hn] at hl
    cases n with
    | zero => exact absurd rfl h0
    | succ n => exact hl
  · rintro (h | h) <;> rw [h] at hl <;> exact hl
  · exact ⟨"", "            MODEL     DEVICE FAMILY        ENCRYPT HTTPS LV  ALIAS", by decide +kernel, rfl⟩
  · exact ⟨"HOST            ", "     DEVICE FAMILY        ENCRYPT HTTPS LV  ALIAS", by decide +kernel, by decide +kernel⟩
  · exact ⟨"HOST            MODEL     ", "        ENCRYPT HTTPS LV  ALIAS", by decide +kernel, by decide +kernel⟩
  · exact ⟨"HOST            MODEL     DEVICE FAMILY        ", " HTTPS LV  ALIAS", by decide +kernel, by decide +kernel⟩
  · exact ⟨"HOST            MODEL     DEVICE FAMILY        ENCRYPT ", " LV  ALIAS", by decide +kernel, by decide +kernel⟩
  · exact ⟨"HOST            MODEL     DEVICE FAMILY        ENCRYPT HTTPS ", "  ALIAS", by decide +kernel, by decide +kernel⟩
  · exact ⟨"HOST            MODEL     DEVICE FAMILY        ENCRYPT HTTPS LV  ", "", by decide +kernel, by decide +kernel⟩

/-! ## `detail` -/

/-- **C98, details, in part.** A device that can be updated is shown with its state; one that refuses the credentials is reported; both
callbacks end well, and so does that for an unsupported device.  (What is missing: any other failure ends the search.) -/
theorem C98_detail_partial (info state : Lines) (text : String) :
    detailPiece (.device (.ok ()) info (state, .ok ())) = ⟨state ++ [""], .ok ()⟩ ∧
    (∀ code st, detailPiece (.device (.error (.auth code)) info st) = ⟨["== Authentication failed for device =="] ++ info ++ ["", ""], .ok ()⟩) ∧
    detailPiece (.unsupported (some info) text) = ⟨["== Unsupported device =="] ++ info ++ [""], .ok ()⟩ ∧
    detailPiece (.unsupported none text) = ⟨["== Unsupported device ==", "\t" ++ text, ""], .ok ()⟩ := ⟨rfl, fun _ _ => rfl, rfl, rfl⟩

/-- **C98, details, the counterexample.** A device whose update fails otherwise, by a timeout say, is not shown, and its callback fails. -/
theorem C98_detail_counterexample (e : Exc) (he : ∀ code, e ≠ .auth code) (info : Lines) (state : Lines × Except Exc Unit) :
    detailPiece (.device (.error e) info state) = ⟨[], .error e⟩ := by
  cases e with
  | auth code => exact absurd rfl (he code)
  | _ => rfl

/-- **C98, details, its consequence.** If the callback of a found device fails, the search does not return: neither the other devices nor the
numbers are reported. -/
theorem C98_detail_lost (d : Discover.Deps) (o : Discover.Options) (packets : Int) (before rest : List DiscoverTasks.Ev) (ip : String) (e : Exc)
    (ho : o.onDiscovered = true) (hs : DiscoverTasks.Searching (DiscoverTasks.run d o packets {} before))
    (hd : ip ∈ (DiscoverTasks.run d o packets {} before).st.discovered.keys)
    (he : (ip, some (.error e)) ∈ (DiscoverTasks.run d o packets {} (before ++ rest)).callbacks) (devs : Dict String Discover.Dev) :
    (DiscoverTasks.run d o packets {} (before ++ rest)).main ≠ .returned devs := by
  intro hr
  have h1 := DiscoverTasks.C88_callbacks d o packets before rest devs ip ho hs hd hr
  have hn := DiscoverTasks.C88_one_callback d o packets (before ++ rest)
  generalize (DiscoverTasks.run d o packets {} (before ++ rest)).callbacks = cs at h1 he hn
  have key : ∀ (cs : List (String × Option (Except Exc Unit))) a b, (cs.map Prod.fst).Nodup → (ip, a) ∈ cs → (ip, b) ∈ cs → a = b := by
    intro cs
    induction cs with
    | nil => intro a b _ h; cases h
    | cons c cs ih =>
      intro a b hn ha hb
      rw [List.map_cons, List.nodup_cons] at hn
      rcases List.mem_cons.1 ha with h1 | h1 <;> rcases List.mem_cons.1 hb with h2 | h2
      · rw [← h1] at h2
        exact (Prod.mk.inj h2).2.symm
      · rw [← h1] at hn
        exact absurd (List.mem_map.2 ⟨_, h2, rfl⟩) hn.1
      · rw [← h2] at hn
        exact absurd (List.mem_map.2 ⟨_, h1, rfl⟩) hn.1
      · exact ih a b hn.2 h1 h2
  have := key cs _ _ hn h1 he
  cases this

/-- The first line of the state of a device. -/
def Titled (s : Lines) : Prop := ∃ title rest, s = title :: rest ∧ title ≠ "== Unsupported device ==" ∧ title ≠ "== Authentication failed for device =="

/-- How many pieces begin with this line. -/
def headed (title : String) (pieces : List Piece) : Nat := (pieces.filter fun p => decide (p.lines.head? = some title)).length

/-- **C98, the numbers.** The numbers in the summary are those of the devices returned, of the pieces that report an unsupported device, and of
those that report a failed authentication. -/
theorem C98_counts (fs : List Found) (hs : ∀ u i s e, .device u i (s, e) ∈ fs → Titled s) (devices : Nat) :
    ∃ n m, n = headed "== Unsupported device ==" (fs.map detailPiece) ∧ m = headed "== Authentication failed for device ==" (fs.map detailPiece) ∧
      summary devices fs = ("Found " ++ toString devices ++ " devices") ::
        ((if n = 0 then [] else ["Found " ++ toString n ++ " unsupported devices"]) ++
         (if m = 0 then [] else ["Found " ++ toString m ++ " devices that failed to authenticate"])) := by
  have key : ∀ fs : List Found, (∀ u i s e, .device u i (s, e) ∈ fs → Titled s) →
      headed "== Unsupported device ==" (fs.map detailPiece) = unsupportedCount fs ∧
      headed "== Authentication failed for device ==" (fs.map detailPiece) = failedCount fs := by
    intro fs
    induction fs with
    | nil => exact fun _ => ⟨rfl, rfl⟩
    | cons f fs ih =>
      intro h
      obtain ⟨i1, i2⟩ := ih fun u i s e hm => h u i s e (List.mem_cons_of_mem _ hm)
      unfold headed unsupportedCount at i1
      unfold headed failedCount at i2
      unfold headed unsupportedCount failedCount
      rw [List.map_cons, List.filter_cons, List.filter_cons, List.filter_cons, List.filter_cons]
      cases f with
      | unsupported i t =>
        cases i <;> simp [detailPiece, detailUnsupported, i1, i2]
      | device u i s =>
        obtain ⟨s, e⟩ := s
        obtain ⟨title, rest, rfl, n1, n2⟩ := h u i s e List.mem_cons_self
        cases u with
        | ok u => cases e <;> simp [detailPiece, detailDevice, i1, i2, n1, n2]
        | error x => cases x <;> simp [detailPiece, detailDevice, i1, i2]
  obtain ⟨k1, k2⟩ := key fs hs
  refine ⟨_, _, rfl, rfl, ?_⟩
  rw [k1, k2]
  rfl

/-! ## `raw` -/

/-- **C98, raw output.** Without `--redact` the response is printed as it is.  With it, the output does not depend on what must be hidden in a
response from that port. -/
theorem C98_raw (printed : List Json → String) (port : Int) :
    (∀ r, rawResponse printed false port r = r) ∧
    ∃ R, (∀ a b, RedactSpec.LooksSame (Redact.shows R) a b → rawResponse printed true port a = rawResponse printed true port b) ∧
      ∀ kh ∈ (if port = 20002 then RedactSpec.discoveryHide else RedactSpec.iotHide), Redact.Hides R kh := by
  refine ⟨fun _ => rfl, if port = 20002 then Redact.discoveryTable printed else Redact.iotTable printed, fun a b h => ?_, ?_⟩
  · exact Redact.C15_noninterference _ a b h
  · split
    · exact (Redact.C15_table_discovery printed).1
    · exact Redact.C15_table_iot printed

/-! ## The end -/

/-- **C98, closing, in part.** A command that was given as such closes all devices it found, in their order, and no other command does.  (What is
missing: if closing a device fails.) -/
theorem C98_closed_partial (devices : List (String × Except Exc Unit)) (h : ∀ x ∈ devices, x.2 = .ok ()) :
    closeAll true devices = (devices.map Prod.fst, .ok ()) ∧ closeAll false devices = ([], .ok ()) := by
  refine ⟨?_, by unfold closeAll; simp⟩
  induction devices with
  | nil => rfl
  | cons x xs ih =>
    obtain ⟨host, r⟩ := x
    have : r = .ok () := h _ List.mem_cons_self
    subst this
    unfold closeAll
    simp only [if_true, ih fun x hx => h x (List.mem_cons_of_mem _ hx), List.map_cons]

/-- **C98, closing, the counterexample.** If closing a device fails, those after it stay open, and the command fails. -/
theorem C98_closed_counterexample (before after : List (String × Except Exc Unit)) (h : ∀ x ∈ before, x.2 = .ok ()) (host : String) (e : Exc) :
    closeAll true (before ++ (host, .error e) :: after) = (before.map Prod.fst ++ [host], .error e) := by
  induction before with
  | nil => rfl
  | cons x xs ih =>
    obtain ⟨host', r⟩ := x
    have : r = .ok () := h _ List.mem_cons_self
    subst this
    rw [List.cons_append, closeAll]
    simp only [if_true, ih fun x hx => h x (List.mem_cons_of_mem _ hx), List.map_cons, List.cons_append]

/-! ## The hypotheses can be met -/

def samplePieces : List Piece := [⟨["a", "b"], .ok ()⟩, ⟨["c"], .ok ()⟩]

example : (run (start samplePieces []) [1, 0, 0, 1, 0, 1, 0, 0, 0, 0]).out = ["c", "a", "b"] := by decide

example := C98_whole samplePieces [] [1, 0, 0, 1, 0, 1, 0, 0, 0, 0] (by
  intro t ht
  have : t = (⟨["a", "b"], .ok ()⟩, .over) ∨ t = (⟨["c"], .ok ()⟩, .over) := by
    simpa [run, start, samplePieces, step] using ht
  rcases this with rfl | rfl <;> rfl)

def sampleColumns : Columns := ⟨"192.168.1.100", "L530", "SMART.TAPOBULB", "KLAP", false, some 2⟩

example : listDevice (fun _ => "x") sampleColumns (.ok ()) (.ok "Lamp") =
    ⟨["192.168.1.100   L530      SMART.TAPOBULB       KLAP    0     2   Lamp"], .ok ()⟩ := by
  have : infostr sampleColumns ++ " " ++ "Lamp" = "192.168.1.100   L530      SMART.TAPOBULB       KLAP    0     2   Lamp" := by decide +kernel
  simp only [listDevice, this]

example := C98_columns sampleColumns (by decide) (by decide) (by decide) (by decide)
example := C98_list (fun _ => "x") sampleColumns (.error .timeout) "Lamp" (fun e h => by cases h; rfl)

example : summary 2 [.device (.error (.auth none)) [] ([], .ok ()), .unsupported none "x", .unsupported none "y"] =
    ["Found 2 devices", "Found 2 unsupported devices", "Found 1 devices that failed to authenticate"] := by decide +kernel

example := C98_counts [.device (.ok ()) [] (["[bold]== Lamp =="], .ok ()), .unsupported none "x"] (by
  intro u i s e h
  simp only [List.mem_cons, Found.device.injEq, Prod.mk.injEq, List.not_mem_nil, or_false, reduceCtorEq] at h
  obtain ⟨_, _, rfl, _⟩ := h
  exact ⟨_, _, rfl, by decide, by decide⟩) 1

example : closeAll true [("a", .ok ()), ("b", .error .kasa), ("c", .ok ())] = (["a", "b"], .error .kasa) :=
  C98_closed_counterexample [("a", .ok ())] [("c", .ok ())] (by simp) "b" .kasa

end Kasa.CliDiscover
