import Verif.Spec.Vacuum
/-!
# C67: robot vacuums
-/

namespace Kasa.Vacuum
open VacuumSpec

/-! ## What the robot does -/

theorem table_status (n : Int) : (Dict.get? statusTable n).getD .unknownInternal = namedStatus n := by
  simp only [statusTable, Dict.get?, namedStatus]
  repeat (
    rw [apply_ite (fun o => Option.getD o Status.unknownInternal)]
    refine ite_congr (propext eq_comm) (fun _ => rfl) fun _ => ?_)
  split <;> rfl

theorem table_error (n : Int) : (Dict.get? errorTable n).getD .unknownInternal = namedError n := by
  simp only [errorTable, Dict.get?, namedError]
  repeat (
    rw [apply_ite (fun o => Option.getD o ErrorCode.unknownInternal)]
    refine ite_congr (propext eq_comm) (fun _ => rfl) fun _ => ?_)
  split <;> rfl

theorem codeOr_num {α : Type} (table : List (Int × α)) (u : α) (n : Int) :
    codeOr table u (.num n) = .ok ((Dict.get? table n).getD u) := by
  unfold codeOr member asInt hashable
  cases h : Dict.get? table n <;> simp [h]

/-- The library shows the robot's first error: its name, or "unknown" for a number that is not listed; no error, and 0, are
"ok".  It shows the status "error" exactly when the error is not "ok", and otherwise the status with that number, or
"unknown".  No list of numbers makes it raise. -/
theorem C67_status (st : Int) (errors : List Int) :
    ∃ e rest s,
      errorHook (.obj [("err_status", .arr (errors.map .num)), ("status", .num st)]) = .ok (e, rest) ∧
      status e rest = .ok s ∧
      (e = match errors with
        | [] => .ok
        | n :: _ => namedError n) ∧
      (s = if e = .ok then namedStatus st else .error) := by
  have hs : ∀ (x : Json) (e : ErrorCode), status e (.obj [("err_status", x), ("status", .num st)]) =
      .ok (if e = .ok then namedStatus st else .error) := by
    intro x e
    unfold status
    by_cases he : e = .ok
    · rw [if_neg (fun h => h he), if_pos he]
      exact (codeOr_num _ _ _).trans (congrArg _ (table_status st))
    · rw [if_pos he, if_neg he]
  cases errors with
  | nil => exact ⟨.ok, _, _, rfl, hs _ _, rfl, rfl⟩
  | cons n ns =>
    refine ⟨_, .obj [("err_status", .arr (ns.map .num)), ("status", .num st)], _, ?_, hs _ _, rfl, rfl⟩
    show (codeOr errorTable .unknownInternal (.num n)).map _ = _
    rw [codeOr_num, table_error]
    rfl

/-- The first error is taken out of the data: running the hook again on the same data shows the next one. -/
theorem C67_error_taken (st : Int) (n m : Int) (rest : List Int) :
    ∃ e d, errorHook (.obj [("err_status", .arr ((n :: m :: rest).map .num)), ("status", .num st)]) = .ok (e, d) ∧
      ∃ d', errorHook d = .ok (namedError m, d') := by
  refine ⟨_, .obj [("err_status", .arr ((m :: rest).map .num)), ("status", .num st)],
    (?_ : _ = Except.ok (namedError n, _)), _, (?_ : _ = Except.ok (_,
      .obj [("err_status", .arr (rest.map .num)), ("status", .num st)]))⟩
  · show (codeOr errorTable .unknownInternal (.num n)).map _ = _
    rw [codeOr_num, table_error]
    rfl
  · show (codeOr errorTable .unknownInternal (.num m)).map _ = _
    rw [codeOr_num, table_error]
    rfl

theorem code_status (s : Status) : namedStatus (statusCode s) = s := by
  cases s <;> decide

theorem shown (r : Robot) : ∃ e rest, errorHook r.report = .ok (e, rest) ∧
    status e rest = .ok (if e = .ok then r.status else .error) ∧
    (r.fine → e = .ok) := by
  obtain ⟨e, rest, s, h1, h2, h3, h4⟩ := C67_status (statusCode r.status) r.errors
  refine ⟨e, rest, h1, ?_, ?_⟩
  · rw [h2, h4, code_status]
  · intro hf
    rcases hf with hf | ⟨t, hf⟩
    · rw [h3, hf]
    · rw [h3, hf]
      show namedError 0 = ErrorCode.ok
      decide

/-- A robot that shows no error: after an update, `start` makes it clean; a paused one goes on where it was.
Missing: robots that show an error, for which this is false, see `C67_restarts`. -/
theorem C67_start_partial (r : Robot) (hf : r.fine) :
    ∃ e rest c, errorHook r.report = .ok (e, rest) ∧ start e rest = .ok c ∧
      (r.obey c).status = .cleaning ∧
      (r.obey c).progress = if r.status = .paused then r.progress else 0 := by
  obtain ⟨e, rest, h1, h2, h3⟩ := shown r
  have he := h3 hf
  refine ⟨e, rest, _, h1, by unfold start; rw [h2]; rfl, ?_⟩
  subst he
  simp only [if_true]
  by_cases hp : r.status = .paused
  · simp only [hp, if_true]
    simp [setPause, Robot.obey, Json.get?, Dict.get?, hp]
  · simp only [hp, if_false]
    exact ⟨rfl, rfl⟩

/-- A robot that moves and shows no error stands still after `pause`, with its progress kept.
Missing: robots that show an error, see `C67_pause_ignored`. -/
theorem C67_pause_partial (r : Robot) (hf : r.fine)
    (hm : r.status = .cleaning ∨ r.status = .mapping ∨ r.status = .goingHome) :
    ∃ e rest c, errorHook r.report = .ok (e, rest) ∧ pause e rest = .ok c ∧
      (r.obey c).status = .paused ∧ (r.obey c).progress = r.progress := by
  obtain ⟨e, rest, h1, h2, h3⟩ := shown r
  have he := h3 hf
  refine ⟨e, rest, _, h1, by unfold pause; rw [h2]; rfl, ?_⟩
  subst he
  simp only [if_true]
  rcases hm with hm | hm | hm <;> simp [hm, setPause, setReturnHome, Robot.obey, Json.get?, Dict.get?]

/-- `return_home` sends every robot home, with its progress kept. -/
theorem C67_home (r : Robot) : r.obey returnHome = { r with status := .goingHome } := by
  simp [returnHome, setReturnHome, Robot.obey, Json.get?, Dict.get?]

/-- Starting, pausing, going on, pausing on the way home and starting again: as long as no error is shown, the floor that
was cleaned stays cleaned.  Whatever the robot was paused in, `pause` and then `start` change only its status. -/
theorem C67_pause_start (r : Robot) (hf : r.fine)
    (hm : r.status = .cleaning ∨ r.status = .mapping ∨ r.status = .goingHome) :
    ∃ e rest c e' rest' c', errorHook r.report = .ok (e, rest) ∧ pause e rest = .ok c ∧
      errorHook (r.obey c).report = .ok (e', rest') ∧ start e' rest' = .ok c' ∧
      (r.obey c).obey c' = { r with status := .cleaning } := by
  obtain ⟨e, rest, h1, h2, h3⟩ := shown r
  have he := h3 hf
  have hpc : pause e rest = .ok (if r.status = .goingHome then setReturnHome false else setPause true) := by
    unfold pause; rw [h2, if_pos he]; rfl
  have hr : r.obey (if r.status = .goingHome then setReturnHome false else setPause true) =
      { r with status := .paused } := by
    rcases hm with hm | hm | hm <;> simp [hm, setPause, setReturnHome, Robot.obey, Json.get?, Dict.get?]
  have hf' : Robot.fine { r with status := .paused } := hf
  obtain ⟨e', rest', g1, g2, g3⟩ := shown { r with status := .paused }
  have he' := g3 hf'
  refine ⟨e, rest, _, e', rest', setPause false, h1, hpc, ?_, ?_, ?_⟩
  · rw [hr]; exact g1
  · unfold start
    rw [g2, if_pos he']
    rfl
  · rw [hr]
    simp [setPause, Robot.obey, Json.get?, Dict.get?]

/-- The full claim for `start` is false: every robot that shows an error, a paused one too, starts from the beginning,
because the library takes its status to be "error". -/
theorem C67_restarts (r : Robot) (n : Int) (rest : List Int) (he : r.errors = n :: rest)
    (hn : n ≠ 0) :
    ∃ e d c, errorHook r.report = .ok (e, d) ∧ start e d = .ok c ∧ (r.obey c).progress = 0 := by
  obtain ⟨e, d, s, h1, h2, h3, h4⟩ := C67_status (statusCode r.status) r.errors
  have hne : e ≠ .ok := by
    rw [h3, he]
    show namedError n ≠ _
    unfold namedError
    rw [if_neg hn]
    repeat (first | (split; exact fun h => nomatch h) | exact fun h => nomatch h)
  rw [if_neg hne] at h4
  subst h4
  exact ⟨e, d, _, h1, by unfold start; rw [h2]; rfl, rfl⟩

/-- The full claim for `pause` is false: a robot that drives home and shows an error drives on. -/
theorem C67_pause_ignored : ∃ (r : Robot) (e : ErrorCode) (d : Json) (c : Call), r.status = .goingHome ∧
    errorHook r.report = .ok (e, d) ∧ pause e d = .ok c ∧ r.obey c = r :=
  ⟨⟨.goingHome, 40, [14]⟩, .dustBinRemoved, .obj [("err_status", .arr []), ("status", .num 4)], setPause true,
    rfl, rfl, rfl, rfl⟩

/-! ## Settings -/

/-- What the device stores for the settings `p`; the way of emptying is kept while the bin is not emptied. -/
structure Holds (s : Store) (p : Prefs) : Prop extends Shown s p where
  emptying : (Ops.item (.obj s.dust) "dust_collection_mode").bind (nameOf dustTable) = .ok p.emptying
  attrWF : Dict.WF s.attr
  dustWF : Dict.WF s.dust

theorem item_congr {d d' : Dict String Json} {k : String} (h : Dict.get? d' k = Dict.get? d k) :
    Ops.item (.obj d') k = Ops.item (.obj d) k := by
  simp only [Ops.item, h]

theorem update_copy {d : Dict String Json} (hd : d.WF) (x k : String) (v : Json) :
    (d.update (d.set x v)).get? k = if x = k then some v else d.get? k := by
  rw [Dict.get?_update (Dict.WF_set hd x v), Dict.get?_set]
  by_cases h : x = k
  · simp [h]
  · rw [if_neg h]
    cases Dict.get? d k <;> simp

theorem water_stored {d : Dict String Json} (hd : d.WF) (k : String) (v : Json) :
    (d.update (Dict.erase (d.set "cistern" v) "type")).get? k = if "cistern" = k then some v else d.get? k := by
  have hw := Dict.WF_set hd "cistern" v
  rw [Dict.get?_update (Dict.WF_erase hw _)]
  by_cases ht : "type" = k
  · subst ht
    rw [Dict.get?_erase_self hw, if_neg (by decide)]
    rfl
  · rw [Dict.get?_erase_ne _ ht, Dict.get?_set]
    by_cases h : "cistern" = k
    · simp [h]
    · rw [if_neg h]
      cases Dict.get? d k <;> simp

theorem fan_get (n : String) : (∃ v, Dict.get? fanTable n = some v ∧ n ∈ fanNames ∧ nameOf fanTable (.num v) = .ok n) ∨
    (Dict.get? fanTable n = none ∧ n ∉ fanNames) := by
  by_cases h : n ∈ fanNames
  · refine .inl ?_
    have : ∀ n ∈ fanNames, ∃ v, Dict.get? fanTable n = some v ∧ n ∈ fanNames ∧ nameOf fanTable (.num v) = .ok n := by
      intro n hn
      simp only [fanNames, List.mem_cons, List.not_mem_nil, or_false] at hn
      rcases hn with rfl | rfl | rfl | rfl | rfl <;> exact ⟨_, rfl, by decide, rfl⟩
    exact this n h
  · refine .inr ⟨?_, h⟩
    rw [Dict.get?_eq_none_iff]
    exact h

theorem water_get (n : String) :
    (∃ v, Dict.get? waterTable n = some v ∧ n ∈ waterNames ∧ nameOf waterTable (.num v) = .ok n) ∨
    (Dict.get? waterTable n = none ∧ n ∉ waterNames) := by
  by_cases h : n ∈ waterNames
  · refine .inl ?_
    have : ∀ n ∈ waterNames, ∃ v, Dict.get? waterTable n = some v ∧ n ∈ waterNames ∧
        nameOf waterTable (.num v) = .ok n := by
      intro n hn
      simp only [waterNames, List.mem_cons, List.not_mem_nil, or_false] at hn
      rcases hn with rfl | rfl | rfl | rfl <;> exact ⟨_, rfl, by decide, rfl⟩
    exact this n h
  · refine .inr ⟨?_, h⟩
    rw [Dict.get?_eq_none_iff]
    exact h

theorem dust_get (n : String) : n = "Off" ∨
    (∃ v, Dict.get? dustTable n = some v ∧ n ≠ "Off" ∧ n ∈ emptyingNames ∧ nameOf dustTable (.num v) = .ok n) ∨
    (Dict.get? dustTable n = none ∧ n ≠ "Off" ∧ n ∉ emptyingNames) := by
  by_cases ho : n = "Off"
  · exact .inl ho
  refine .inr ?_
  by_cases h : n ∈ emptyingNames
  · refine .inl ?_
    have : ∀ n ∈ emptyingNames, ∃ v, Dict.get? dustTable n = some v ∧ n ≠ "Off" ∧ n ∈ emptyingNames ∧
        nameOf dustTable (.num v) = .ok n := by
      intro n hn
      simp only [emptyingNames, List.mem_cons, List.not_mem_nil, or_false] at hn
      rcases hn with rfl | rfl | rfl | rfl <;> exact ⟨_, rfl, by decide, by decide, rfl⟩
    exact this n h
  · refine .inr ⟨?_, ho, h⟩
    rw [Dict.get?_eq_none_iff]
    intro hm
    simp only [dustTable, Dict.keys, List.map, List.mem_cons, List.not_mem_nil, or_false] at hm
    simp only [emptyingNames, List.mem_cons, List.not_mem_nil, or_false] at h
    rcases hm with hm | hm | hm | hm | hm
    · exact h (.inl hm)
    · exact h (.inr (.inl hm))
    · exact h (.inr (.inr (.inl hm)))
    · exact h (.inr (.inr (.inr hm)))
    · exact ho hm

/-- A name that is not listed is refused with a `ValueError` before anything is sent; the rest is sent. -/
theorem C67_refused (s : Store) (op : Op) :
    (∃ c, send s op = .ok c) ∧ op.listed ∨ send s op = .error (.other "ValueError") ∧ ¬ op.listed := by
  cases op with
  | fan n =>
    rcases fan_get n with ⟨v, hv, hn, -⟩ | ⟨hv, hn⟩
    · exact .inl ⟨⟨_, by simp only [send, setFanSpeed, hv]; rfl⟩, hn⟩
    · exact .inr ⟨by simp only [send, setFanSpeed, hv], hn⟩
  | water n =>
    rcases water_get n with ⟨v, hv, hn, -⟩ | ⟨hv, hn⟩
    · exact .inl ⟨⟨_, by simp only [send, setWaterlevel, hv]; rfl⟩, hn⟩
    · exact .inr ⟨by simp only [send, setWaterlevel, hv], hn⟩
  | count n => exact .inl ⟨⟨_, rfl⟩, trivial⟩
  | boost on => exact .inl ⟨⟨_, rfl⟩, trivial⟩
  | dust n =>
    rcases dust_get n with rfl | ⟨v, hv, ho, hn, -⟩ | ⟨hv, ho, hn⟩
    · exact .inl ⟨⟨_, rfl⟩, .inl rfl⟩
    · exact .inl ⟨⟨_, by simp only [send, setDustMode, hv, if_neg ho]; rfl⟩, .inr hn⟩
    · exact .inr ⟨by simp only [send, setDustMode, hv], fun h => h.elim ho hn⟩
  | auto on => exact .inl ⟨⟨_, rfl⟩, trivial⟩

/-- Each name stands for its number: it is sent and shown as that number; setting the water level or the way of emptying
sends the other fields as they are. -/
theorem C67_numbers (attr dust : Dict String Json) :
    (∀ p ∈ fanNumbers, setFanSpeed p.1 = .ok ⟨"setCleanAttr", .obj [("suction", .num p.2), ("type", .str "global")]⟩ ∧
      fanSpeed (.obj (attr.set "suction" (.num p.2))) = .ok p.1) ∧
    (∀ p ∈ waterNumbers, setWaterlevel (.obj attr) p.1 = .ok ⟨"setCleanAttr", .obj (attr.set "cistern" (.num p.2))⟩ ∧
      waterlevel (.obj (attr.set "cistern" (.num p.2))) = .ok p.1) ∧
    (∀ p ∈ emptyingNumbers, setDustMode (.obj dust) p.1 = .ok ⟨"setDustCollectionInfo",
        .obj ((dust.set "auto_dust_collection" (.bool true)).set "dust_collection_mode" (.num p.2))⟩ ∧
      dustMode (.obj ((dust.set "auto_dust_collection" (.bool true)).set "dust_collection_mode" (.num p.2))) = .ok p.1) := by
  refine ⟨?_, ?_, ?_⟩
  · intro p hp
    simp only [fanNumbers, List.mem_cons, List.not_mem_nil, or_false] at hp
    rcases hp with rfl | rfl | rfl | rfl | rfl <;>
      exact ⟨rfl, by simp only [fanSpeed, Ops.item, Dict.get?_set_self]; rfl⟩
  · intro p hp
    simp only [waterNumbers, List.mem_cons, List.not_mem_nil, or_false] at hp
    rcases hp with rfl | rfl | rfl | rfl <;>
      exact ⟨rfl, by simp only [waterlevel, Ops.item, Dict.get?_set_self]; rfl⟩
  · intro p hp
    have h1 : ∀ v, Dict.get? ((dust.set "auto_dust_collection" (.bool true)).set "dust_collection_mode" v)
        "auto_dust_collection" = some (.bool true) := fun v => by
      rw [Dict.get?_set_ne _ _ (by decide), Dict.get?_set_self]
    simp only [emptyingNumbers, List.mem_cons, List.not_mem_nil, or_false] at hp
    rcases hp with rfl | rfl | rfl | rfl <;>
      exact ⟨rfl, by simp only [dustMode, autoCollection, Ops.item, h1, Dict.get?_set_self]; rfl⟩

/-- The fields of the device that an operation may change. -/
def fields : Op → List String
  | .fan _ => ["suction"]
  | .water _ => ["cistern"]
  | .count _ => ["clean_number"]
  | .boost _ => ["carpet_clean_prefer"]
  | .dust _ => ["auto_dust_collection", "dust_collection_mode"]
  | .auto _ => ["auto_dust_collection"]

/-- After an update, an operation changes the fields of its setting and no others, whatever else the device stores. -/
theorem C67_others (s : Store) (ha : Dict.WF s.attr) (hd : Dict.WF s.dust) (op : Op) (k : String) (hk : k ∉ fields op) :
    Dict.get? (s.step s op).attr k = Dict.get? s.attr k ∧
    Dict.get? (s.step s op).carpet k = Dict.get? s.carpet k ∧
    Dict.get? (s.step s op).dust k = Dict.get? s.dust k := by
  unfold Store.step
  cases op with
  | fan n =>
    rcases fan_get n with ⟨v, hv, -⟩ | ⟨hv, -⟩ <;> simp only [send, setFanSpeed, hv]
    · have hk' : "suction" ≠ k := fun h => hk (by simp [fields, h])
      exact ⟨Dict.get?_set_ne _ _ hk', rfl, rfl⟩
    · exact ⟨trivial, trivial, trivial⟩
  | water n =>
    rcases water_get n with ⟨v, hv, -⟩ | ⟨hv, -⟩ <;> simp only [send, setWaterlevel, hv]
    · have hk' : "cistern" ≠ k := fun h => hk (by simp [fields, h])
      exact ⟨(water_stored ha k _).trans (if_neg hk'), rfl, rfl⟩
    · exact ⟨trivial, trivial, trivial⟩
  | count n =>
    have hk' : "clean_number" ≠ k := fun h => hk (by simp [fields, h])
    exact ⟨Dict.get?_set_ne _ _ hk', rfl, rfl⟩
  | boost on =>
    have hk' : "carpet_clean_prefer" ≠ k := fun h => hk (by simp [fields, h])
    exact ⟨rfl, Dict.get?_set_ne _ _ hk', rfl⟩
  | dust n =>
    have hk1 : "auto_dust_collection" ≠ k := fun h => hk (by simp [fields, h])
    have hk2 : "dust_collection_mode" ≠ k := fun h => hk (by simp [fields, h])
    rcases dust_get n with rfl | ⟨v, hv, ho, -⟩ | ⟨hv, ho, -⟩
    · exact ⟨rfl, rfl, (update_copy hd _ k _).trans (if_neg hk1)⟩
    · simp only [send, setDustMode, hv, if_neg ho]
      refine ⟨rfl, rfl, ?_⟩
      show Dict.get? (s.dust.update ((s.dust.set "auto_dust_collection" _).set "dust_collection_mode" _)) k = _
      rw [Dict.get?_update (Dict.WF_set (Dict.WF_set hd _ _) _ _), Dict.get?_set_ne _ _ hk2, Dict.get?_set_ne _ _ hk1]
      cases Dict.get? s.dust k <;> rfl
    · simp only [send, setDustMode, hv]
      exact ⟨trivial, trivial, trivial⟩
  | auto on =>
    have hk1 : "auto_dust_collection" ≠ k := fun h => hk (by simp [fields, h])
    exact ⟨rfl, rfl, (update_copy hd _ k _).trans (if_neg hk1)⟩

theorem step_wf (s : Store) (ha : Dict.WF s.attr) (hd : Dict.WF s.dust) (op : Op) :
    Dict.WF (s.step s op).attr ∧ Dict.WF (s.step s op).dust := by
  unfold Store.step Store.obey
  split
  · split
    · exact ⟨Dict.WF_update ha, hd⟩
    · exact ⟨ha, hd⟩
    · exact ⟨ha, Dict.WF_update hd⟩
    · exact ⟨ha, hd⟩
  · exact ⟨ha, hd⟩

/-- The values of the fields after an operation. -/
theorem step_dust (s : Store) (hd : Dict.WF s.dust) (op : Op) :
    (∀ n v, op = .dust n → n ≠ "Off" → Dict.get? dustTable n = some v →
      Dict.get? (s.step s op).dust "auto_dust_collection" = some (.bool true) ∧
      Dict.get? (s.step s op).dust "dust_collection_mode" = some (.num v)) ∧
    (op = .dust "Off" → Dict.get? (s.step s op).dust "auto_dust_collection" = some (.bool false) ∧
      Dict.get? (s.step s op).dust "dust_collection_mode" = Dict.get? s.dust "dust_collection_mode") ∧
    (∀ on, op = .auto on → Dict.get? (s.step s op).dust "auto_dust_collection" = some (.bool on) ∧
      Dict.get? (s.step s op).dust "dust_collection_mode" = Dict.get? s.dust "dust_collection_mode") := by
  refine ⟨?_, ?_, ?_⟩
  · rintro n v rfl ho hv
    unfold Store.step
    simp only [send, setDustMode, hv, if_neg ho]
    have hw := Dict.WF_set (Dict.WF_set hd "auto_dust_collection" (Json.bool true)) "dust_collection_mode" (Json.num v)
    constructor
    · show Dict.get? (s.dust.update ((s.dust.set "auto_dust_collection" _).set "dust_collection_mode" _)) _ = _
      rw [Dict.get?_update hw, Dict.get?_set_ne _ _ (by decide), Dict.get?_set_self]
      rfl
    · show Dict.get? (s.dust.update ((s.dust.set "auto_dust_collection" _).set "dust_collection_mode" _)) _ = _
      rw [Dict.get?_update hw, Dict.get?_set_self]
      rfl
  · rintro rfl
    exact ⟨(update_copy hd _ _ _).trans (if_pos rfl), (update_copy hd _ _ _).trans (if_neg (by decide))⟩
  · rintro on rfl
    exact ⟨(update_copy hd _ _ _).trans (if_pos rfl), (update_copy hd _ _ _).trans (if_neg (by decide))⟩

theorem dustMode_of {d : Dict String Json} {auto : Bool} {v : Json} {name : String}
    (h1 : Dict.get? d "auto_dust_collection" = some (.bool auto)) (h2 : Dict.get? d "dust_collection_mode" = some v)
    (h3 : nameOf dustTable v = .ok name) : dustMode (.obj d) = .ok (if auto then name else "Off") := by
  unfold dustMode autoCollection Ops.item
  simp only [h1, h2, bind, Except.bind, pure, Except.pure]
  cases auto
  · simp
  · simp [h3]

/-- After an update, an operation changes what the library shows, after the next update, as it says. -/
theorem C67_step (s : Store) (p : Prefs) (op : Op) (h : Holds s p) : Holds (s.step s op) (p.apply op) := by
  have hoth := C67_others s h.attrWF h.dustWF op
  have hwf := step_wf s h.attrWF h.dustWF op
  have keepA : ∀ k, k ∉ fields op → Ops.item (.obj (s.step s op).attr) k = Ops.item (.obj s.attr) k :=
    fun k hk => item_congr (hoth k hk).1
  have keepC : ∀ k, k ∉ fields op → Ops.item (.obj (s.step s op).carpet) k = Ops.item (.obj s.carpet) k :=
    fun k hk => item_congr (hoth k hk).2.1
  have keepD : ∀ k, k ∉ fields op → Ops.item (.obj (s.step s op).dust) k = Ops.item (.obj s.dust) k :=
    fun k hk => item_congr (hoth k hk).2.2
  have hdu := step_dust s h.dustWF op
  have hfan : "suction" ∉ fields op → fanSpeed (.obj (s.step s op).attr) = .ok p.fan := fun hk => by
    unfold fanSpeed; rw [keepA _ hk]; exact h.fan
  have hwater : "cistern" ∉ fields op → waterlevel (.obj (s.step s op).attr) = .ok p.water := fun hk => by
    unfold waterlevel; rw [keepA _ hk]; exact h.water
  have hcount : "clean_number" ∉ fields op → cleanCount (.obj (s.step s op).attr) = .ok (.num p.count) := fun hk => by
    unfold cleanCount; rw [keepA _ hk]; exact h.count
  have hboost : "carpet_clean_prefer" ∉ fields op → carpetBoost (.obj (s.step s op).carpet) = .ok p.boost := fun hk => by
    unfold carpetBoost; rw [keepC _ hk]; exact h.boost
  have hauto : "auto_dust_collection" ∉ fields op →
      autoCollection (.obj (s.step s op).dust) = .ok (.bool p.auto) := fun hk => by
    unfold autoCollection; rw [keepD _ hk]; exact h.auto
  have hemp : "dust_collection_mode" ∉ fields op →
      (Ops.item (.obj (s.step s op).dust) "dust_collection_mode").bind (nameOf dustTable) = .ok p.emptying := fun hk => by
    rw [keepD _ hk]; exact h.emptying
  have hdust : "auto_dust_collection" ∉ fields op → "dust_collection_mode" ∉ fields op →
      dustMode (.obj (s.step s op).dust) = .ok (if p.auto then p.emptying else "Off") := fun h1 h2 => by
    unfold dustMode autoCollection; rw [keepD _ h1, keepD _ h2]; exact h.dust
  have raw : ∃ v, Dict.get? s.dust "dust_collection_mode" = some v ∧ nameOf dustTable v = .ok p.emptying := by
    have := h.emptying
    cases hg : Dict.get? s.dust "dust_collection_mode" with
    | none => simp only [Ops.item, hg] at this; cases this
    | some v => simp only [Ops.item, hg] at this; exact ⟨v, rfl, this⟩
  have item_of : ∀ {d : Dict String Json} {k : String} {v : Json}, Dict.get? d k = some v → Ops.item (.obj d) k = .ok v := by
    intro d k v hv
    simp only [Ops.item, hv]
  have autoOf : ∀ b, Dict.get? (s.step s op).dust "auto_dust_collection" = some (.bool b) →
      autoCollection (.obj (s.step s op).dust) = .ok (.bool b) := fun b hb => item_of hb
  cases op with
  | fan n =>
    rcases fan_get n with ⟨v, hv, hn, hname⟩ | ⟨hv, hn⟩
    · have hst : (s.step s (.fan n)).attr = s.attr.set "suction" (.num v) := by
        simp only [Store.step, send, setFanSpeed, hv]; rfl
      simp only [Prefs.apply, if_pos hn]
      refine ⟨⟨?_, hwater (by simp [fields]), hcount (by simp [fields]), hboost (by simp [fields]), hauto (by simp [fields]),
        hdust (by simp [fields]) (by simp [fields])⟩, hemp (by simp [fields]), hwf.1, hwf.2⟩
      unfold fanSpeed
      rw [hst, item_of (Dict.get?_set_self _ _ _)]
      exact hname
    · have hst : s.step s (.fan n) = s := by simp only [Store.step, send, setFanSpeed, hv]
      simp only [Prefs.apply, if_neg hn, hst]
      exact h
  | water n =>
    rcases water_get n with ⟨v, hv, hn, hname⟩ | ⟨hv, hn⟩
    · have hst : Dict.get? (s.step s (.water n)).attr "cistern" = some (.num v) := by
        simp only [Store.step, send, setWaterlevel, hv]
        exact (water_stored h.attrWF _ _).trans (if_pos rfl)
      simp only [Prefs.apply, if_pos hn]
      refine ⟨⟨hfan (by simp [fields]), ?_, hcount (by simp [fields]), hboost (by simp [fields]), hauto (by simp [fields]),
        hdust (by simp [fields]) (by simp [fields])⟩, hemp (by simp [fields]), hwf.1, hwf.2⟩
      unfold waterlevel
      rw [item_of hst]
      exact hname
    · have hst : s.step s (.water n) = s := by simp only [Store.step, send, setWaterlevel, hv]
      simp only [Prefs.apply, if_neg hn, hst]
      exact h
  | count n =>
    refine ⟨⟨hfan (by simp [fields]), hwater (by simp [fields]), ?_, hboost (by simp [fields]), hauto (by simp [fields]),
      hdust (by simp [fields]) (by simp [fields])⟩, hemp (by simp [fields]), hwf.1, hwf.2⟩
    exact item_of (Dict.get?_set_self s.attr _ _)
  | boost on =>
    refine ⟨⟨hfan (by simp [fields]), hwater (by simp [fields]), hcount (by simp [fields]), ?_, hauto (by simp [fields]),
      hdust (by simp [fields]) (by simp [fields])⟩, hemp (by simp [fields]), hwf.1, hwf.2⟩
    unfold carpetBoost
    rw [show Ops.item (.obj (s.step s (.boost on)).carpet) "carpet_clean_prefer" = _ from
      item_of (Dict.get?_set_self s.carpet _ _)]
    cases on <;> rfl
  | dust n =>
    rcases dust_get n with rfl | ⟨v, hv, ho, hn, hname⟩ | ⟨hv, ho, hn⟩
    · obtain ⟨h1, h2⟩ := hdu.2.1 rfl
      obtain ⟨v, hv, hname⟩ := raw
      refine ⟨⟨hfan (by simp [fields]), hwater (by simp [fields]), hcount (by simp [fields]), hboost (by simp [fields]), autoOf _ h1, ?_⟩, ?_,
        hwf.1, hwf.2⟩
      · exact dustMode_of h1 (h2.trans hv) hname
      · rw [item_of (h2.trans hv)]
        exact hname
    · obtain ⟨h1, h2⟩ := hdu.1 n v rfl ho hv
      simp only [Prefs.apply, if_neg ho, if_pos hn]
      refine ⟨⟨hfan (by simp [fields]), hwater (by simp [fields]), hcount (by simp [fields]), hboost (by simp [fields]), autoOf _ h1, ?_⟩, ?_,
        hwf.1, hwf.2⟩
      · exact dustMode_of h1 h2 hname
      · rw [item_of h2]
        exact hname
    · have hst : s.step s (.dust n) = s := by simp only [Store.step, send, setDustMode, hv]
      simp only [Prefs.apply, if_neg ho, if_neg hn, hst]
      exact h
  | auto on =>
    obtain ⟨h1, h2⟩ := hdu.2.2 on rfl
    obtain ⟨v, hv, hname⟩ := raw
    refine ⟨⟨hfan (by simp [fields]), hwater (by simp [fields]), hcount (by simp [fields]), hboost (by simp [fields]), autoOf _ h1, ?_⟩, ?_,
      hwf.1, hwf.2⟩
    · exact dustMode_of h1 (h2.trans hv) hname
    · rw [item_of (h2.trans hv)]
      exact hname

/-- After any number of operations, each after an update, the library shows what they left: the settings that were made
last, the others as they were, and refused ones have no effect. -/
theorem C67_history (s : Store) (p : Prefs) (ops : List Op) (h : Holds s p) :
    Shown (s.after ops) (ops.foldl Prefs.apply p) := by
  suffices Holds (s.after ops) (ops.foldl Prefs.apply p) from this.toShown
  unfold Store.after
  induction ops generalizing s p with
  | nil => exact h
  | cons op ops ih => exact ih _ _ (C67_step s p op h)

/-- Without an update in between this is false: setting the water level sends all cleaning settings back as they were at
the last update, and so undoes a fan speed set since. -/
theorem C67_water_undoes_fan (s : Store) (p : Prefs) (h : Holds s p) (fan water : String) (hf : fan ∈ fanNames)
    (hw : water ∈ waterNames) :
    fanSpeed (.obj (s.step s (.fan fan)).attr) = .ok fan ∧
    fanSpeed (.obj ((s.step s (.fan fan)).step s (.water water)).attr) = .ok p.fan := by
  refine ⟨by simpa [Prefs.apply, hf] using (C67_step s p (.fan fan) h).fan, ?_⟩
  rcases water_get water with ⟨v, hv, -, -⟩ | ⟨-, hn⟩
  · unfold Store.step
    simp only [send, setWaterlevel, hv]
    rcases fan_get fan with ⟨x, hx, -, -⟩ | ⟨-, hn⟩
    · simp only [setFanSpeed, hx]
      have hfan := h.fan
      unfold fanSpeed at hfan ⊢
      rw [← hfan]
      have : ∀ d : Dict String Json, Dict.get? (d.update (Dict.erase (s.attr.set "cistern" (.num v)) "type")) "suction" =
          Dict.get? s.attr "suction" := by
        intro d
        rw [Dict.get?_update (Dict.WF_erase (Dict.WF_set h.attrWF _ _) _), Dict.get?_erase_ne _ (by decide),
          Dict.get?_set_ne _ _ (by decide)]
        cases hs : Dict.get? s.attr "suction" with
        | none =>
          exfalso
          simp only [Ops.item, hs] at hfan
          cases hfan
        | some y => rfl
      exact congrArg (fun x => Except.bind x (nameOf fanTable)) (item_congr (this _))
    · exact absurd hf hn
  · exact absurd hw hn

/-! ## Cleaning records -/

/-- The last cleaning is the four numbers that the device reports, in the order timestamp, minutes, area, emptied. -/
theorem C67_last_clean (d : Dict String Json) (t m a c : Json) (more : List Json) :
    ∃ left, recordsHook (.obj (d.set "lastest_day_record" (.arr (t :: m :: a :: c :: more)))) = .ok (⟨t, m, a, c⟩, left) := by
  have hp : preDeserialize (.obj (d.set "lastest_day_record" (.arr (t :: m :: a :: c :: more)))) =
      .ok (.obj (Dict.set (d.set "lastest_day_record" (.arr (t :: m :: a :: c :: more))) "lastest_day_record"
        (.obj [("timestamp", t), ("clean_time", m), ("clean_area", a), ("dust_collection", c)]))) := by
    unfold preDeserialize
    simp only [Dict.get?_set_self]
    rfl
  unfold recordsHook
  simp only [hp, bind, Except.bind, Json.get?, Dict.get?_set_self, Option.getD_some]
  exact ⟨_, rfl⟩

/-- The hook rewrites the data it reads: running it again on the same data raises `KeyError`. -/
theorem C67_records_once (d : Dict String Json) (t m a c : Json) (more : List Json) :
    ∃ last left, recordsHook (.obj (d.set "lastest_day_record" (.arr (t :: m :: a :: c :: more)))) = .ok (last, left) ∧
      recordsHook left = .error (.other "KeyError") := by
  have hp : preDeserialize (.obj (d.set "lastest_day_record" (.arr (t :: m :: a :: c :: more)))) =
      .ok (.obj (Dict.set (d.set "lastest_day_record" (.arr (t :: m :: a :: c :: more))) "lastest_day_record"
        (.obj [("timestamp", t), ("clean_time", m), ("clean_area", a), ("dust_collection", c)]))) := by
    unfold preDeserialize
    simp only [Dict.get?_set_self]
    rfl
  refine ⟨⟨t, m, a, c⟩, .obj (Dict.set (d.set "lastest_day_record" (.arr (t :: m :: a :: c :: more))) "lastest_day_record"
        (.obj [("timestamp", t), ("clean_time", m), ("clean_area", a), ("dust_collection", c)])), ?_, ?_⟩
  · unfold recordsHook
    simp only [hp, bind, Except.bind, Json.get?, Dict.get?_set_self, Option.getD_some]
    rfl
  · unfold recordsHook preDeserialize
    simp only [Dict.get?_set_self]
    rfl

/-! ## Examples -/

/-- A robot that was paused and reports an error. -/
example : Robot.fine ⟨.paused, 40, [0]⟩ := .inr ⟨[], rfl⟩

example : (Robot.mk .paused 40 [0]).obey (setPause false) = ⟨.cleaning, 40, [0]⟩ := by decide

def store1 : Store where
  attr := [("cistern", .num 2), ("clean_number", .num 1), ("suction", .num 2)]
  carpet := [("carpet_clean_prefer", .str "boost")]
  dust := [("auto_dust_collection", .bool true), ("dust_collection_mode", .num 0)]

def prefs1 : Prefs := ⟨"Standard", "Medium", 1, true, true, "Smart"⟩

theorem store1_holds : Holds store1 prefs1 :=
  ⟨⟨rfl, rfl, rfl, rfl, rfl, rfl⟩, rfl, by unfold Dict.WF; decide +kernel, by unfold Dict.WF; decide +kernel⟩

/-- Fan, an unknown fan speed, the bin, off, and on again. -/
example : [Op.fan "Max", .fan "Warp", .dust "Light", .dust "Off", .auto true, .water "High"].foldl Prefs.apply prefs1 =
    ⟨"Max", "High", 1, true, true, "Light"⟩ := by decide +kernel

example : dustMode (.obj (store1.after [.fan "Max", .dust "Light", .dust "Off"]).dust) = .ok "Off" :=
  (C67_history store1 prefs1 [.fan "Max", .dust "Light", .dust "Off"] store1_holds).dust

end Kasa.Vacuum
