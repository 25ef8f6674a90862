import Verif.Spec.ChildSetup
/-!
# C72: pairing and unpairing of child devices
-/

namespace Kasa.ChildSetup
open PyM Ops ChildSetupSpec

section
variable {σ : Type} (env : Env σ)

theorem scanRequest_key (k : Kind) (cats : Json) : (scanRequest k cats).1 = scanKey k := by cases k <;> rfl

theorem isChild_str {id : Json} {children : List String} {b : Bool} (h : isChild id children = .ok b) :
    b = true ↔ ∃ s, id = .str s ∧ s ∈ children := by
  cases id <;> simp only [isChild] at h <;> cases h <;> simp

/-- Is the device one of `children`? -/
def among (children : List String) (d : Json) : Bool :=
  match idOf d with
  | some id => decide (id ∈ children)
  | none => false

theorem item_ok {x : Json} {key : String} {v : Json} (h : item x key = .ok v) : x.get? key = some v := by
  cases x with
  | obj kvs =>
    simp only [item] at h
    simp only [Json.get?]
    cases hg : Dict.get? kvs key with
    | none => rw [hg] at h; cases h
    | some w => rw [hg] at h; cases h; rfl
  | _ => cases h

theorem item_of_get? {x : Json} {key : String} {v : Json} (h : x.get? key = some v) : item x key = .ok v := by
  cases x with
  | obj kvs => simp only [Json.get?] at h; simp only [item, h]
  | _ => cases h

theorem check_ok {children : List String} {acc : List Json} {d : Json} {out : List Json}
    (h : check children acc d = .ok out) : out = acc ++ [d].filter (among children) := by
  unfold check at h
  cases h1 : item d "device_id" with
  | error e => rw [h1] at h; cases h
  | ok id =>
    rw [h1] at h
    cases h2 : isChild id children with
    | error e => simp only [bind, Except.bind, h2] at h; cases h
    | ok b =>
      cases h3 : item d "device_model" with
      | error e => simp only [bind, Except.bind, h2, h3] at h; cases h
      | ok m =>
        simp only [bind, Except.bind, h2, h3, pure, Except.pure, Except.ok.injEq] at h
        subst h
        have hb := isChild_str h2
        have hg := item_ok h1
        cases b with
        | true =>
          obtain ⟨s, rfl, hs⟩ := hb.1 rfl
          have : among children d = true := by simp [among, idOf, hg, hs]
          simp [this]
        | false =>
          have : among children d = false := by
            unfold among idOf
            rw [hg]
            cases id <;> simp only []
            rename_i s
            exact decide_eq_false fun hs => Bool.noConfusion (hb.2 ⟨s, rfl, hs⟩)
          simp [this]

theorem checks_ok {children : List String} (xs : List Json) {acc out : List Json}
    (h : xs.foldlM (check children) acc = .ok out) : out = acc ++ xs.filter (among children) := by
  induction xs generalizing acc with
  | nil => cases h; simp
  | cons d xs ih =>
    rw [List.foldlM_cons] at h
    cases h1 : check children acc d with
    | error e => rw [h1] at h; cases h
    | ok acc1 =>
      rw [h1] at h
      rw [ih h, check_ok h1, List.append_assoc, ← List.filter_append]
      rfl

theorem check_entry {children : List String} {acc : List Json} {d : Json} (h : Entry d) :
    check children acc d = .ok (acc ++ [d].filter (among children)) := by
  obtain ⟨id, model, h1, h2⟩ := h
  have hi : isChild (.str id) children = .ok (decide (id ∈ children)) := rfl
  simp only [check, item_of_get? h1, item_of_get? h2, hi, bind, Except.bind, pure, Except.pure]
  congr 1
  have : among children d = decide (id ∈ children) := by simp [among, idOf, h1]
  by_cases hm : id ∈ children <;> simp [this, hm]

theorem checks_entries {children : List String} (xs : List Json) (h : ∀ d ∈ xs, Entry d) (acc : List Json) :
    xs.foldlM (check children) acc = .ok (acc ++ xs.filter (among children)) := by
  induction xs generalizing acc with
  | nil => simp; rfl
  | cons d xs ih =>
    rw [List.foldlM_cons, check_entry (h d (.head _))]
    show xs.foldlM (check children) _ = _
    rw [ih fun e he => h e (.tail _ he), List.append_assoc, ← List.filter_append]
    rfl

theorem iter_str {x : String} {xs : List Json} (h : Names.iter (.str x) = .ok xs) : ∀ d ∈ xs, ∃ s, d = .str s := by
  cases h
  intro d hd
  obtain ⟨c, _, rfl⟩ := List.mem_map.1 hd
  exact ⟨_, rfl⟩

theorem checks_texts {children : List String} {acc out : List Json} {xs : List Json} (hx : ∀ d ∈ xs, ∃ s, d = .str s)
    (h : xs.foldlM (check children) acc = .ok out) : xs = [] := by
  cases xs with
  | nil => rfl
  | cons d xs =>
    obtain ⟨s, rfl⟩ := hx d (.head _)
    rw [List.foldlM_cons] at h
    cases h

/-- What `_add_devices` does. -/
theorem addDevices_log (k : Kind) (cats : Json) (t : Nat) (detected list : Json) (hl : item detected "child_device_list" = .ok list)
    (s : St σ) : ∃ n, 3 < n ∧ (addDevices env k detected s).2.log = s.log ++ ((plan k cats t detected).take n).drop 3 := by
  have hg := item_ok hl
  unfold addDevices
  rw [hl]
  simp only [bind_apply, lift_ok_apply]
  have hadd : ((plan k cats t detected).take 4).drop 3 =
      [.call (addRequest k detected list).1 (addRequest k detected list).2] := by
    cases k <;> simp [plan, addRequest, hg]
  have hall : ((plan k cats t detected).take 5).drop 3 =
      [.call (addRequest k detected list).1 (addRequest k detected list).2, .update] := by
    cases k <;> simp [plan, addRequest, hg]
  simp only [call]
  cases hc : env.call (addRequest k detected list).1 (addRequest k detected list).2 s.world with
  | mk r w =>
    cases r with
    | error e => exact ⟨4, by omega, by simp only [hadd]⟩
    | ok v =>
      simp only [update]
      cases hu : env.update w with
      | mk r2 w2 =>
        cases r2 with
        | error e => exact ⟨5, by omega, by simp only [hall, List.append_assoc, List.cons_append, List.nil_append]⟩
        | ok c =>
          refine ⟨5, by omega, ?_⟩
          simp only [get_apply, lift_apply, hall, List.append_assoc, List.cons_append, List.nil_append]

theorem addDevices_ok (k : Kind) (detected : Json) {list : Json} (hl : item detected "child_device_list" = .ok list)
    (ht : list.truthy = true) {s s' : St σ} {out : List Json} (h : addDevices env k detected s = (.ok out, s')) :
    ∃ found, list = .arr found ∧ out = found.filter (among s'.children) := by
  unfold addDevices at h
  rw [hl] at h
  simp only [bind_apply, lift_ok_apply, call] at h
  cases hc : env.call (addRequest k detected list).1 (addRequest k detected list).2 s.world with
  | mk r w =>
    rw [hc] at h
    cases r with
    | error e => cases h
    | ok v =>
      simp only [update] at h
      cases hu : env.update w with
      | mk r2 w2 =>
        rw [hu] at h
        cases r2 with
        | error e => cases h
        | ok c =>
          simp only [get_apply, lift_apply, Prod.mk.injEq] at h
          obtain ⟨h1, h2⟩ := h
          cases hi : Names.iter list with
          | error e => rw [hi] at h1; cases h1
          | ok xs =>
            rw [hi] at h1
            have h1 : xs.foldlM (check c) [] = .ok out := h1
            subst h2
            cases list with
            | arr found =>
              simp only [Names.iter, Except.ok.injEq] at hi
              subst hi
              exact ⟨_, rfl, by rw [checks_ok _ h1]; rfl⟩
            | str x =>
              have := checks_texts (iter_str hi) h1
              subst this
              simp only [Names.iter, Except.ok.injEq, List.map_eq_nil_iff] at hi
              have hx : x = "" := String.toList_eq_nil_iff.1 hi
              subst hx
              cases ht
            | obj kvs =>
              have hx : xs = [] := checks_texts (by
                simp only [Names.iter, Except.ok.injEq] at hi
                subst hi
                intro d hd
                obtain ⟨c, _, rfl⟩ := List.mem_map.1 hd
                exact ⟨_, rfl⟩) h1
              subst hx
              simp only [Names.iter, Except.ok.injEq, List.map_eq_nil_iff] at hi
              subst hi
              cases ht
            | null => cases ht
            | bool b => cases hi
            | num n => cases hi

theorem start_plan (k : Kind) (cats : Json) (t : Nat) (d : Json) : (plan k cats t d).take 3 =
    [.call (startRequest k cats).1 (startRequest k cats).2, .sleep t, .call (scanRequest k cats).1 (scanRequest k cats).2] := by
  cases k <;> rfl

theorem scanned_eq (k : Kind) (cats : Json) (t : Nat) (w : σ) : scanned env k cats t w =
    (env.call (scanRequest k cats).1 (scanRequest k cats).2
      (env.sleep t (env.call (startRequest k cats).1 (startRequest k cats).2 w).2)).1 := by
  cases k <;> rfl

end

/-- **C72, what is done.** Pairing starts a scan, waits for as long as it was told, asks what was found, has the hub add just
that, and updates; it may fail in between, and adds nothing unless something was found. -/
theorem C72_requests {σ : Type} (env : Env σ) (k : Kind) (cats : Json) (seconds : Nat) (s : St σ) :
    ∃ n detected, (pair env k cats seconds s).2.log = s.log ++ (plan k cats seconds detected).take n ∧
      (3 < n → ∃ answer list, scanned env k cats seconds s.world = .ok answer ∧ answer.get? (scanKey k) = some detected ∧
        detected.get? "child_device_list" = some list ∧ list.truthy = true) := by
  have h1 : ∀ d, (plan k cats seconds d).take 1 = [.call (startRequest k cats).1 (startRequest k cats).2] := by
    intro d; cases k <;> rfl
  have h3 := start_plan k cats seconds
  have hs := scanned_eq env k cats seconds s.world
  unfold pair
  simp only [bind_apply, call, sleep]
  cases ha : env.call (startRequest k cats).1 (startRequest k cats).2 s.world with
  | mk r w =>
    cases r with
    | error e => exact ⟨1, .null, by simp only [h1], by omega⟩
    | ok v =>
      rw [ha] at hs
      simp only []
      cases hb : env.call (scanRequest k cats).1 (scanRequest k cats).2 (env.sleep seconds w) with
      | mk r2 w2 =>
        rw [hb] at hs
        cases r2 with
        | error e =>
          exact ⟨3, .null, by simp only [h3, List.append_assoc, List.cons_append, List.nil_append], by omega⟩
        | ok res =>
          simp only [lift_apply]
          cases hd : item res (scanRequest k cats).1 with
          | error e => exact ⟨3, .null, by simp only [h3, List.append_assoc, List.cons_append, List.nil_append], by omega⟩
          | ok detected =>
            simp only []
            cases hl : item detected "child_device_list" with
            | error e => exact ⟨3, .null, by simp only [h3, List.append_assoc, List.cons_append, List.nil_append], by omega⟩
            | ok list =>
              simp only []
              cases ht : list.truthy with
              | false =>
                exact ⟨3, .null, by
                  simp only [h3, Bool.not_false, if_true, pure_apply, List.append_assoc, List.cons_append, List.nil_append],
                  by omega⟩
              | true =>
                simp only [Bool.not_true, Bool.false_eq_true, if_false, bind_apply, lift_apply]
                cases hn : len list with
                | error e => exact ⟨3, .null, by simp only [h3, List.append_assoc, List.cons_append, List.nil_append], by omega⟩
                | ok m =>
                  simp only []
                  obtain ⟨n, hn3, hlog⟩ := addDevices_log env k cats seconds detected list hl
                    { world := w2, children := s.children,
                      log := s.log ++ [.call (startRequest k cats).1 (startRequest k cats).2] ++ [.sleep seconds] ++
                        [.call (scanRequest k cats).1 (scanRequest k cats).2] }
                  refine ⟨n, detected, ?_, fun _ => ⟨res, list, hs, ?_, item_ok hl, ht⟩⟩
                  · rw [hlog]
                    have : (plan k cats seconds detected).take n =
                        (plan k cats seconds detected).take 3 ++ ((plan k cats seconds detected).take n).drop 3 := by
                      conv => lhs; rw [← List.take_append_drop 3 ((plan k cats seconds detected).take n)]
                      rw [List.take_take, Nat.min_eq_left (by omega)]
                    conv => rhs; rw [this, h3]
                    simp only [List.append_assoc, List.cons_append, List.nil_append]
                  · rw [← scanRequest_key k cats]; exact item_ok hd

/-- **C72, what is returned.** Pairing returns the found devices that are children of the hub afterwards, as they were
found and in that order. -/
theorem C72_result {σ : Type} (env : Env σ) (k : Kind) (cats : Json) (seconds : Nat) (s s' : St σ) (out : List Json)
    (h : pair env k cats seconds s = (.ok out, s')) :
    ∃ answer detected list, scanned env k cats seconds s.world = .ok answer ∧ answer.get? (scanKey k) = some detected ∧
      detected.get? "child_device_list" = some list ∧
      (list.truthy = false ∧ out = [] ∧ s'.children = s.children ∨
       ∃ found, list = .arr found ∧ found ≠ [] ∧
        out = found.filter fun d => match idOf d with | some id => decide (id ∈ s'.children) | none => false) := by
  have hs := scanned_eq env k cats seconds s.world
  unfold pair at h
  simp only [bind_apply, call, sleep] at h
  cases ha : env.call (startRequest k cats).1 (startRequest k cats).2 s.world with
  | mk r w =>
    rw [ha] at h hs
    cases r with
    | error e => cases h
    | ok v =>
      simp only [] at h
      cases hb : env.call (scanRequest k cats).1 (scanRequest k cats).2 (env.sleep seconds w) with
      | mk r2 w2 =>
        rw [hb] at h hs
        cases r2 with
        | error e => cases h
        | ok res =>
          simp only [lift_apply] at h
          cases hd : item res (scanRequest k cats).1 with
          | error e => rw [hd] at h; cases h
          | ok detected =>
            rw [hd] at h
            simp only [] at h
            cases hl : item detected "child_device_list" with
            | error e => rw [hl] at h; cases h
            | ok list =>
              rw [hl] at h
              simp only [] at h
              refine ⟨res, detected, list, hs, by rw [← scanRequest_key k cats]; exact item_ok hd, item_ok hl, ?_⟩
              cases ht : list.truthy with
              | false =>
                rw [ht] at h
                cases h
                exact .inl ⟨rfl, rfl, rfl⟩
              | true =>
                rw [ht] at h
                simp only [Bool.not_true, Bool.false_eq_true, if_false, bind_apply, lift_apply] at h
                cases hn : len list with
                | error e => rw [hn] at h; cases h
                | ok m =>
                  rw [hn] at h
                  simp only [] at h
                  obtain ⟨found, h1, h2⟩ := addDevices_ok env k detected hl ht h
                  refine .inr ⟨found, h1, ?_, h2⟩
                  rintro rfl
                  subst h1
                  cases ht

/-! ## On a hub -/

theorem filter_ne (xs : List String) (id : String) : (xs.filter fun x => !(([id] : List String).contains x)) = xs.filter (· ≠ id) := by
  apply List.filter_congr
  intro x _
  by_cases hx : x = id <;> simp [hx]

theorem addRequest_answer (k : Kind) (p : Place) (found : List Json) (h : Hub) :
    Hub.answer k p (addRequest k (.obj [("child_device_list", .arr found)]) (.arr found)).1
        (addRequest k (.obj [("child_device_list", .arr found)]) (.arr found)).2 h =
      (.ok (.obj [((addRequest k (.obj [("child_device_list", .arr found)]) (.arr found)).1, .obj [])]),
        { paired := addAll h.paired ((ids found).filter p.accepts), scanning := none }) := by
  cases k <;> rfl

/-- **C72, pairing.** On a hub that does what it is told, the devices heard while waiting and accepted are paired
afterwards, nothing else changes, and what is returned are those heard that are the hub's children now. -/
theorem C72_pair (k : Kind) (p : Place) (cats : Json) (seconds : Nat) (s : St Hub)
    (hc : s.children = s.world.paired.filter p.knows) (he : ∀ d ∈ p.hears cats seconds, Entry d) :
    ∃ s', pair (hubEnv k p) k cats seconds s =
        (.ok ((p.hears cats seconds).filter fun d =>
          match idOf d with | some id => decide (id ∈ s'.children) | none => false), s') ∧
      s'.world.paired = addAll s.world.paired ((ids (p.hears cats seconds)).filter p.accepts) ∧
      s'.children = s'.world.paired.filter p.knows := by
  have hstart : Hub.answer k p (startRequest k cats).1 (startRequest k cats).2 s.world =
      (.ok (.obj [((startRequest k cats).1, .obj [])]), { s.world with scanning := some 0 }) := by
    cases k <;> rfl
  have hscan : Hub.answer k p (scanRequest k cats).1 (scanRequest k cats).2 { s.world with scanning := some (0 + seconds) } =
      (.ok (.obj [((scanRequest k cats).1, .obj [("child_device_list", .arr (p.hears cats (0 + seconds)))])]),
        { s.world with scanning := some (0 + seconds) }) := by
    cases k <;> rfl
  rw [Nat.zero_add] at hscan
  have hitem : ∀ v : Json, item (.obj [((scanRequest k cats).1, v)]) (scanRequest k cats).1 = .ok v := by
    intro v; cases k <;> rfl
  unfold pair
  simp only [bind_apply, call, sleep, hubEnv, hstart, Option.map_some, Nat.zero_add, hscan, lift_apply, hitem]
  have hlist : item (.obj [("child_device_list", .arr (p.hears cats seconds))]) "child_device_list" =
      .ok (.arr (p.hears cats seconds)) := rfl
  simp only [hlist]
  cases hh : p.hears cats seconds with
  | nil =>
    refine ⟨_, by simp only [Json.truthy, List.isEmpty_nil, Bool.not_true, Bool.not_false, if_true, pure_apply, List.filter_nil]; rfl, ?_, ?_⟩
    · rfl
    · exact hc
  | cons d ds =>
    rw [← hh]
    have ht : (Json.arr (p.hears cats seconds)).truthy = true := by rw [hh]; rfl
    simp only [ht, Bool.not_true, Bool.false_eq_true, if_false, bind_apply, lift_apply, len, addDevices, hlist, call, update,
      addRequest_answer, get_apply]
    refine ⟨_, Prod.ext ?_ rfl, ?_, ?_⟩
    · simp only [Names.iter, bind, Except.bind]
      rw [checks_entries _ he]
      rfl
    · rfl
    · rfl

/-- **C72, unpairing.** Unpairing takes away the device that was named, and no other. -/
theorem C72_unpair (k : Kind) (p : Place) (id : String) (s : St Hub) :
    ∃ answer s', unpair (hubEnv k p) k id s = (.ok answer, s') ∧ s'.world.paired = s.world.paired.filter (· ≠ id) ∧
      s'.children = s'.world.paired.filter p.knows := by
  have hr : Hub.answer k p (removeRequest k id).1 (removeRequest k id).2 s.world =
      (.ok (.obj [((removeRequest k id).1, .obj [])]), { s.world with paired := s.world.paired.filter (· ≠ id) }) := by
    have hw := filter_ne s.world.paired id
    cases k <;>
    · simp only [removeRequest]
      rw [← hw]
      rfl
  unfold unpair
  simp only [bind_apply, call, hubEnv, hr, update, pure_apply]
  exact ⟨_, _, rfl, rfl, rfl⟩

/-- **C72, over time.** However often devices were paired and unpaired, the hub is paired with what that leaves, and its
children are those of them the library supports. -/
theorem C72_history (k : Kind) (p : Place) (cats : Json) (ops : List Op) (s : St Hub)
    (hc : s.children = s.world.paired.filter p.knows) (he : ∀ n, ∀ d ∈ p.hears cats n, Entry d) :
    (ops.foldl (run k p cats) s).world.paired = ops.foldl (wanted p cats) s.world.paired ∧
      (ops.foldl (run k p cats) s).children = (ops.foldl (wanted p cats) s.world.paired).filter p.knows := by
  induction ops generalizing s with
  | nil => exact ⟨rfl, hc⟩
  | cons op ops ih =>
    simp only [List.foldl_cons]
    have hstep : (run k p cats s op).world.paired = wanted p cats s.world.paired op ∧
        (run k p cats s op).children = (run k p cats s op).world.paired.filter p.knows := by
      cases op with
      | pair t =>
        obtain ⟨s', h1, h2, h3⟩ := C72_pair k p cats t s hc (he t)
        simp only [run, h1, wanted]
        exact ⟨h2, h3⟩
      | unpair id =>
        obtain ⟨a, s', h1, h2, h3⟩ := C72_unpair k p id s
        simp only [run, h1, wanted]
        exact ⟨h2, h3⟩
    rw [← hstep.1]
    exact ih _ hstep.2

theorem mem_addAll (old xs : List String) (x : String) : x ∈ addAll old xs ↔ x ∈ old ∨ x ∈ xs := by
  induction xs generalizing old with
  | nil => simp [addAll]
  | cons y ys ih =>
    rw [addAll, ih]
    by_cases hy : y ∈ old
    · rw [if_pos hy]
      constructor
      · rintro (h | h)
        · exact .inl h
        · exact .inr (.tail _ h)
      · rintro (h | h)
        · exact .inl h
        · rcases List.mem_cons.1 h with rfl | h
          · exact .inl hy
          · exact .inr h
    · rw [if_neg hy]
      simp [or_assoc]

/-- **C72, what is reported.** When the library supports all devices and none of those heard was paired before, what is
returned are exactly the devices that the hub took on.  Missing: the other cases, see `C72_unknown` and `C72_again`. -/
theorem C72_reported_partial (k : Kind) (p : Place) (cats : Json) (seconds : Nat) (s : St Hub)
    (hc : s.children = s.world.paired.filter p.knows) (he : ∀ d ∈ p.hears cats seconds, Entry d)
    (hk : ∀ id, p.knows id = true) (hnew : ∀ id ∈ ids (p.hears cats seconds), id ∉ s.world.paired) :
    (pair (hubEnv k p) k cats seconds s).1 =
      .ok ((p.hears cats seconds).filter fun d => match idOf d with | some id => p.accepts id | none => false) := by
  obtain ⟨s', h1, h2, h3⟩ := C72_pair k p cats seconds s hc he
  rw [h1]
  show Except.ok _ = _
  congr 1
  apply List.filter_congr
  intro d hd
  cases hi : idOf d with
  | none => rfl
  | some id =>
    have hmem : id ∈ ids (p.hears cats seconds) := List.mem_filterMap.2 ⟨d, hd, hi⟩
    simp only []
    rw [h3, List.filter_eq_self.2 (fun x _ => hk x), h2]
    rw [Bool.eq_iff_iff, decide_eq_true_iff, mem_addAll, List.mem_filter]
    constructor
    · rintro (h | h)
      · exact absurd h (hnew id hmem)
      · exact h.2
    · intro h
      exact .inr ⟨hmem, h⟩

/-- A device as the scan reports it. -/
def sensor (id : String) : Json := .obj [("device_id", .str id), ("device_model", .str "T110")]

/-- **C72, refuted in part.** A device the library does not support is paired but not reported. -/
theorem C72_unknown (k : Kind) (cats : Json) (seconds : Nat) (id : String) :
    let p : Place := { hears := fun _ _ => [sensor id], accepts := fun _ => true, knows := fun _ => false }
    let s : St Hub := { world := { paired := [], scanning := none }, children := [] }
    (pair (hubEnv k p) k cats seconds s).1 = .ok [] ∧ (pair (hubEnv k p) k cats seconds s).2.world.paired = [id] := by
  intro p s
  have he : ∀ d ∈ p.hears cats seconds, Entry d := by
    intro d hd
    rcases List.mem_singleton.1 hd with rfl
    exact ⟨id, .str "T110", rfl, rfl⟩
  obtain ⟨s', h1, h2, h3⟩ := C72_pair k p cats seconds s rfl he
  rw [h1]
  have hp : s'.world.paired = [id] := by rw [h2]; rfl
  refine ⟨?_, hp⟩
  have hch : s'.children = [] := by rw [h3, hp]; rfl
  simp [p, sensor, idOf, Json.get?, Dict.get?, hch]

/-- **C72, refuted in part.** A device that was paired before, and that the hub does not take on again, is reported. -/
theorem C72_again (k : Kind) (cats : Json) (seconds : Nat) (id : String) :
    let p : Place := { hears := fun _ _ => [sensor id], accepts := fun _ => false, knows := fun _ => true }
    let s : St Hub := { world := { paired := [id], scanning := none }, children := [id] }
    (pair (hubEnv k p) k cats seconds s).1 = .ok [sensor id] ∧ (pair (hubEnv k p) k cats seconds s).2.world.paired = [id] := by
  intro p s
  have he : ∀ d ∈ p.hears cats seconds, Entry d := by
    intro d hd
    rcases List.mem_singleton.1 hd with rfl
    exact ⟨id, .str "T110", rfl, rfl⟩
  obtain ⟨s', h1, h2, h3⟩ := C72_pair k p cats seconds s rfl he
  rw [h1]
  have hp : s'.world.paired = [id] := by rw [h2]; rfl
  refine ⟨?_, hp⟩
  have hch : s'.children = [id] := by rw [h3, hp]; rfl
  simp [p, sensor, idOf, Json.get?, Dict.get?, hch]

/-- **C72, refuted in part.** When the scan does not name the model of a device, pairing raises `KeyError` though the
device is paired. -/
theorem C72_no_model (k : Kind) (cats : Json) (seconds : Nat) (id : String) :
    let p : Place := { hears := fun _ _ => [.obj [("device_id", .str id)]], accepts := fun _ => true, knows := fun _ => true }
    let s : St Hub := { world := { paired := [], scanning := none }, children := [] }
    (pair (hubEnv k p) k cats seconds s).1 = .error (.other "KeyError") ∧
      (pair (hubEnv k p) k cats seconds s).2.world.paired = [id] := by
  cases k <;> exact ⟨rfl, rfl⟩

/-- The hypotheses of the theorems above hold of this hub, which hears two sensors after ten seconds and takes one. -/
def exampleHub : Place where
  hears _ n := if n < 10 then [] else [sensor "a", sensor "b"]
  accepts id := id = "a"
  knows _ := true

example : ∀ n, ∀ d ∈ exampleHub.hears .null n, Entry d := by
  intro n d hd
  unfold exampleHub at hd
  simp only [] at hd
  split at hd
  · cases hd
  · simp only [List.mem_cons, List.not_mem_nil, or_false] at hd
    rcases hd with rfl | rfl
    · exact ⟨"a", .str "T110", rfl, rfl⟩
    · exact ⟨"b", .str "T110", rfl, rfl⟩

example : (pair (hubEnv .camera exampleHub) .camera .null 10
    { world := { paired := ["c"], scanning := none }, children := ["c"] }).1 = .ok [sensor "a"] := by decide +kernel

example : [Op.pair 5, .pair 12, .unpair "c"].foldl (wanted exampleHub .null) ["c"] = ["a"] := by decide +kernel

end Kasa.ChildSetup
