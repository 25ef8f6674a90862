import Verif.Spec.TimeZone
/-!
# C43 and C59: time zones and clocks
-/

namespace Kasa.Time

open TimeSpec

variable {same : Tz → String → Bool}

theorem table_length : table.length = 110 := by decide +kernel

theorem getTimezone_of {i : Int} (h0 : 0 ≤ i) (h1 : i ≤ 109) :
    ∃ name, getTimezone i = .ok name ∧ table[i.toNat]? = some name := by
  unfold getTimezone
  rw [if_neg (by omega), if_neg (by omega)]
  have hl : i.toNat < table.length := by rw [table_length]; omega
  rw [List.getElem?_eq_getElem hl]
  exact ⟨_, rfl, rfl⟩

/-- The reversed table finds every entry (the 110 names are different). -/
theorem rev_of_table : ∀ i : Fin 110, ∀ name ∈ table[i.val]?, Dict.get? rev name = some (i.val : Int) := by
  decide +kernel

/-- The reversed table contains entries of the table only. -/
theorem rev_sound : ∀ p ∈ rev, 0 ≤ p.2 ∧ p.2 ≤ 109 ∧ table[p.2.toNat]? = some p.1 := by decide +kernel

/-- C43: every index of the table maps to a zone, and looking that zone up gives the index again. -/
theorem C43_round_trip (i : Int) (h0 : 0 ≤ i) (h1 : i ≤ 109) :
    ∃ name, getTimezone i = .ok name ∧ getTimezoneIndex same (.zone name) = .ok i := by
  obtain ⟨name, hn, ht⟩ := getTimezone_of h0 h1
  refine ⟨name, hn, ?_⟩
  have := rev_of_table ⟨i.toNat, by omega⟩ name ht
  have e : ((i.toNat : Nat) : Int) = i := Int.toNat_of_nonneg h0
  unfold getTimezoneIndex
  simp only
  rw [this]
  show Except.ok ((i.toNat : Nat) : Int) = _
  rw [e]

/-- C43: indices above the table map to UTC. -/
theorem C43_above (i : Int) (h : 109 < i) : getTimezone i = .ok "Etc/UTC" := by
  unfold getTimezone
  rw [if_pos h]

/-- The claim does not hold of negative indices: they are a `KeyError`.  (-1 is what the library itself takes for "not
known".) -/
theorem C43_negative (i : Int) (h : i < 0) : getTimezone i = .error (.other "KeyError") := by
  unfold getTimezone
  rw [if_neg (by omega), if_pos h]

theorem find_spec {tz : Tz} {i : Nat} (h : (List.range 110).find? (matchesIndex same tz) = some i) :
    i < 110 ∧ ∃ name, getTimezone i = .ok name ∧ same tz name = true := by
  have hm := List.mem_of_find?_eq_some h
  have hp := List.find?_some h
  rw [List.mem_range] at hm
  refine ⟨hm, ?_⟩
  unfold matchesIndex at hp
  cases hg : getTimezone i with
  | ok name => rw [hg] at hp; exact ⟨name, rfl, hp⟩
  | error e => rw [hg] at hp; cases hp

theorem find_first {tz : Tz} {i : Nat} (h : (List.range 110).find? (matchesIndex same tz) = some i) (j : Nat)
    (hj : j < i) (name : String) (hn : getTimezone j = .ok name) : same tz name = false := by
  have hlt := (find_spec h).1
  rw [List.find?_eq_some_iff_append] at h
  obtain ⟨_, as, bs, hab, hno⟩ := h
  have hlen : as.length = i := by
    have h1 : (List.range 110)[as.length]? = some i := by rw [hab]; simp
    by_cases hl : as.length < 110
    · rw [List.getElem?_range hl] at h1
      exact Option.some.inj h1
    · rw [List.getElem?_eq_none (by simp; omega)] at h1; cases h1
  have hj' : as[j]? = some j := by
    have h1 : (List.range 110)[j]? = some j := List.getElem?_range (by omega)
    rw [hab, List.getElem?_append_left (by omega)] at h1
    exact h1
  have := hno j (List.mem_of_getElem? hj')
  unfold matchesIndex at this
  rw [hn] at this
  simpa using this

/-- What looking a zone up can give. -/
theorem getTimezoneIndex_cases (tz : Tz) :
    (∃ key i, tz = .zone key ∧ Dict.get? rev key = some i ∧ getTimezoneIndex same tz = .ok i) ∨
    ((∀ key, tz = .zone key → Dict.get? rev key = none) ∧
      ((∃ i, (List.range 110).find? (matchesIndex same tz) = some i ∧ getTimezoneIndex same tz = .ok i) ∨
       ((List.range 110).find? (matchesIndex same tz) = none ∧
        getTimezoneIndex same tz = .error (.other (match tz with | .zone _ => "ValueError" | _ => "UnboundLocalError"))))) := by
  cases tz with
  | zone key =>
    cases hr : Dict.get? rev key with
    | some i => exact .inl ⟨key, i, rfl, hr, by unfold getTimezoneIndex; simp only [hr]⟩
    | none =>
      refine .inr ⟨fun k hk => by cases hk; exact hr, ?_⟩
      cases hf : (List.range 110).find? (matchesIndex same (.zone key)) with
      | some i => exact .inl ⟨i, rfl, by unfold getTimezoneIndex; simp only [hr, hf]⟩
      | none => exact .inr ⟨rfl, by unfold getTimezoneIndex; simp only [hr, hf]⟩
  | other off name =>
    refine .inr ⟨fun k hk => (by cases hk), ?_⟩
    cases hf : (List.range 110).find? (matchesIndex same (.other off name)) with
    | some i => exact .inl ⟨i, rfl, by unfold getTimezoneIndex; simp only [hf]⟩
    | none => exact .inr ⟨rfl, by unfold getTimezoneIndex; simp only [hf]⟩

/-- C43: an index that is found is one of the table, and its zone is the zone that was looked up, or the first of the
table with the same offsets. -/
theorem C43_lookup (tz : Tz) (i : Int) (h : getTimezoneIndex same tz = .ok i) :
    0 ≤ i ∧ i ≤ 109 ∧ ∃ name, getTimezone i = .ok name ∧ standsFor same tz name ∧
      (tz ≠ .zone name → ∀ j : Int, 0 ≤ j → j < i → ∀ n, getTimezone j = .ok n → same tz n = false) := by
  rcases getTimezoneIndex_cases (same := same) tz with ⟨key, k, rfl, hr, hk⟩ | ⟨_, ⟨k, hf, hk⟩ | ⟨_, he⟩⟩
  · rw [hk] at h
    cases h
    obtain ⟨h0, h1, ht⟩ := rev_sound (key, i) (Dict.mem_of_get? hr)
    obtain ⟨name, hn, ht'⟩ := getTimezone_of h0 h1
    rw [ht] at ht'
    cases ht'
    exact ⟨h0, h1, key, hn, .inl rfl, fun hne => absurd rfl hne⟩
  · rw [hk] at h
    cases h
    obtain ⟨hlt, name, hn, hs⟩ := find_spec hf
    refine ⟨by omega, by omega, name, hn, .inr hs, fun _ j hj0 hj n hn => ?_⟩
    refine find_first hf j.toNat (by omega) n ?_
    rw [Int.toNat_of_nonneg hj0]
    exact hn
  · rw [he] at h; cases h

/-- C43: a zone with the offsets of one of the table is always found. -/
theorem C43_found (tz : Tz) (j : Int) (h0 : 0 ≤ j) (h1 : j ≤ 109) (name : String) (hn : getTimezone j = .ok name)
    (hs : same tz name = true) : ∃ i, getTimezoneIndex same tz = .ok i := by
  rcases getTimezoneIndex_cases (same := same) tz with ⟨_, i, _, _, hk⟩ | ⟨_, ⟨i, _, hk⟩ | ⟨hf, _⟩⟩
  · exact ⟨i, hk⟩
  · exact ⟨_, hk⟩
  · exfalso
    rw [List.find?_eq_none] at hf
    apply hf j.toNat (by rw [List.mem_range]; omega)
    unfold matchesIndex
    rw [Int.toNat_of_nonneg h0, hn]
    exact hs

/-- C43: indices above the table, which give UTC, come back as an index whose zone has the offsets of UTC (index 38,
`UCT`, at the latest). -/
theorem C43_above_again (i : Int) (h : 109 < i) (hs : same (.zone "Etc/UTC") "UCT" = true) :
    ∃ name j again, getTimezone i = .ok name ∧ getTimezoneIndex same (.zone name) = .ok j ∧ getTimezone j = .ok again ∧
      same (.zone name) again = true ∧ j ≤ 38 := by
  have hk : getTimezone 38 = .ok "UCT" := by decide +kernel
  obtain ⟨j, hj⟩ := C43_found (same := same) (.zone "Etc/UTC") 38 (by omega) (by omega) "UCT" hk hs
  obtain ⟨h0, h1, again, ha, hst, hf⟩ := C43_lookup _ j hj
  have hne : Tz.zone "Etc/UTC" ≠ .zone again := by
    intro e
    cases e
    have hno : ∀ k : Fin 110, table[k.val]? ≠ some "Etc/UTC" := by decide +kernel
    obtain ⟨n, hn, ht⟩ := getTimezone_of h0 h1
    rw [ha] at hn
    cases hn
    exact hno ⟨j.toNat, by omega⟩ ht
  refine ⟨_, j, again, C43_above i h, hj, ha, ?_, ?_⟩
  · rcases hst with e | e
    · exact absurd e hne
    · exact e
  · rcases Int.lt_or_le 38 j with hlt | hle
    · have := hf hne 38 (by omega) hlt "UCT" hk
      rw [this] at hs; cases hs
    · exact hle

/-- C43: a named zone without a counterpart in the table is refused with a `ValueError`. -/
theorem C43_unsupported (key : String) (h : ∀ name ∈ table, key ≠ name ∧ same (.zone key) name = false) :
    getTimezoneIndex same (.zone key) = .error (.other "ValueError") := by
  rcases getTimezoneIndex_cases (same := same) (.zone key) with ⟨k, i, hk, hr, _⟩ | ⟨_, ⟨i, hf, _⟩ | ⟨_, he⟩⟩
  · cases hk
    have := (rev_sound (key, i) (Dict.mem_of_get? hr)).2.2
    exact absurd rfl (h key (List.mem_of_getElem? this)).1
  · obtain ⟨hlt, name, hn, hs⟩ := find_spec hf
    obtain ⟨n, hn', ht⟩ := getTimezone_of (i := (i : Int)) (by omega) (by omega)
    rw [hn] at hn'
    cases hn'
    rw [(h name (List.mem_of_getElem? ht)).2] at hs
    cases hs
  · exact he

/-- But for a zone that is no `ZoneInfo` the refusal is itself an error: the message needs a name that was never set. -/
theorem C43_unsupported_offset (off : Int) (n : Option String) (h : ∀ name ∈ table, same (.other off n) name = false) :
    getTimezoneIndex same (.other off n) = .error (.other "UnboundLocalError") := by
  rcases getTimezoneIndex_cases (same := same) (.other off n) with ⟨k, i, hk, _⟩ | ⟨_, ⟨i, hf, _⟩ | ⟨_, he⟩⟩
  · cases hk
  · obtain ⟨hlt, name, hn, hs⟩ := find_spec hf
    obtain ⟨n', hn', ht⟩ := getTimezone_of (i := (i : Int)) (by omega) (by omega)
    rw [hn] at hn'
    cases hn'
    rw [h name (List.mem_of_getElem? ht)] at hs
    cases hs
  · exact he

/-! ### All matching zones -/

theorem addMatch_mem (tz : Tz) (found : List String) (i : Nat) (x : String) :
    x ∈ addMatch same tz found i ↔ x ∈ found ∨ (getTimezone i = .ok x ∧ same tz x = true) := by
  unfold addMatch
  cases hg : getTimezone i with
  | error e => simp
  | ok name =>
    simp only [Except.ok.injEq]
    split
    · rename_i hc
      simp only [Bool.and_eq_true] at hc
      rw [List.mem_append, List.mem_singleton]
      constructor
      · rintro (h | rfl)
        · exact .inl h
        · exact .inr ⟨rfl, hc.1⟩
      · rintro (h | ⟨rfl, _⟩)
        · exact .inl h
        · exact .inr rfl
    · rename_i hc
      constructor
      · exact .inl
      · rintro (h | ⟨rfl, hs⟩)
        · exact h
        · simp only [hs, Bool.true_and, Bool.not_eq_true', Bool.not_eq_false] at hc
          simpa using hc

theorem foldl_addMatch_mem (tz : Tz) (is : List Nat) : ∀ (found : List String) (x : String),
    x ∈ is.foldl (addMatch same tz) found ↔ x ∈ found ∨ ∃ i ∈ is, getTimezone i = .ok x ∧ same tz x = true := by
  induction is with
  | nil => simp
  | cons i is ih =>
    intro found x
    rw [List.foldl_cons, ih, addMatch_mem]
    constructor
    · rintro ((h | h) | ⟨j, hj, h⟩)
      · exact .inl h
      · exact .inr ⟨i, List.mem_cons_self, h⟩
      · exact .inr ⟨j, List.mem_cons_of_mem _ hj, h⟩
    · rintro (h | ⟨j, hj, h⟩)
      · exact .inl (.inl h)
      · rcases List.mem_cons.mp hj with rfl | hj
        · exact .inl (.inr h)
        · exact .inr ⟨j, hj, h⟩

theorem foldl_addMatch_nodup (tz : Tz) (is : List Nat) : ∀ (found : List String), found.Nodup →
    (is.foldl (addMatch same tz) found).Nodup := by
  induction is with
  | nil => intro f h; exact h
  | cons i is ih =>
    intro f h
    rw [List.foldl_cons]
    apply ih
    unfold addMatch
    split
    · split
      · rename_i hc
        simp only [Bool.and_eq_true, Bool.not_eq_true'] at hc
        rw [List.nodup_append]
        refine ⟨h, by simp, ?_⟩
        intro a ha b hb hab
        rw [List.mem_singleton] at hb
        subst hab hb
        have := hc.2
        simp [ha] at this
      · exact h
    · exact h

/-- C43: the list of matching zones contains exactly the zones of the table that are the given one or have its
offsets, each once. -/
theorem C43_matching (tz : Tz) (x : String) :
    (x ∈ matching same tz ↔ x ∈ table ∧ standsFor same tz x) ∧ (matching same tz).Nodup := by
  have hin : ∀ i ∈ List.range 110, ∀ x, getTimezone ((i : Nat) : Int) = .ok x → x ∈ table := by
    intro i hi x hx
    rw [List.mem_range] at hi
    obtain ⟨n, hn, ht⟩ := getTimezone_of (i := (i : Int)) (by omega) (by omega)
    rw [hn] at hx
    cases hx
    exact List.mem_of_getElem? ht
  have hout : ∀ x ∈ table, ∃ i ∈ List.range 110, getTimezone ((i : Nat) : Int) = .ok x := by
    intro x hx
    obtain ⟨i, hi, rfl⟩ := List.mem_iff_getElem.mp hx
    have hl := table_length
    refine ⟨i, by rw [List.mem_range]; omega, ?_⟩
    obtain ⟨n, hn, ht⟩ := getTimezone_of (i := (i : Int)) (by omega) (by omega)
    rw [hn]
    have ht : table[i]? = some n := ht
    rw [List.getElem?_eq_getElem hi] at ht
    rw [Option.some.inj ht]
  unfold matching
  refine ⟨?_, ?_⟩
  · rw [foldl_addMatch_mem]
    constructor
    · rintro (h | ⟨i, hi, hg, hs⟩)
      · cases tz with
        | zone key =>
          simp only at h
          split at h
          · rename_i hc
            rw [List.mem_singleton] at h
            subst h
            exact ⟨by simpa using hc, .inl rfl⟩
          · cases h
        | other _ _ => cases h
      · exact ⟨hin i hi x hg, .inr hs⟩
    · rintro ⟨ht, rfl | hs⟩
      · left
        simp only
        rw [if_pos (by simpa using ht)]
        exact List.mem_singleton.mpr rfl
      · obtain ⟨i, hi, hg⟩ := hout x ht
        exact .inr ⟨i, hi, hg, hs⟩
  · apply foldl_addMatch_nodup
    cases tz with
    | zone key => simp only; split <;> simp
    | other _ _ => simp

/-- A sense of sameness for the examples: the listed pairs. -/
def Example.utcLike (tz : Tz) (name : String) : Bool :=
  decide (name = "UCT" ∧ (tz = .zone "Etc/UTC" ∨ tz = .other 0 (some "UTC")))

example : getTimezoneIndex Example.utcLike (.zone "Etc/UTC") = .ok 38 ∧
    getTimezoneIndex Example.utcLike (.other 0 (some "UTC")) = .ok 38 ∧
    getTimezoneIndex Example.utcLike (.zone "Europe/Berlin") = .error (.other "ValueError") ∧
    getTimezoneIndex Example.utcLike (.other 3600000000 (some "X")) = .error (.other "UnboundLocalError") ∧
    matching Example.utcLike (.zone "Etc/UTC") = ["UCT"] ∧ getTimezone 48 = .ok "Europe/Athens" ∧
    getTimezoneIndex Example.utcLike (.zone "Europe/Athens") = .ok 48 := by decide +kernel

/-! ## C59: setting the clock of a legacy device -/

theorem legacyTime_report (d : LegacyDevice) (w : Wall) (hw : w.valid = true)
    (hc : d.clock = wallParams w ∨ ∃ i, d.clock = Dict.set (wallParams w) "index" (.num i)) :
    legacyTime d.report = .ok w := by
  rcases hc with hc | ⟨i, hc⟩
  all_goals
    unfold legacyTime LegacyDevice.report
    rw [hc]
    show (if w.valid then Except.ok w else _) = _
    rw [if_pos hw]

theorem legacyZone_report (d : LegacyDevice) (old : Tz) (i : Int) (h : d.index = some i) :
    legacyZone d.report old = (getTimezone i).map .zone := by
  unfold legacyZone LegacyDevice.report
  rw [h]
  rfl

theorem legacyZone_none (d : LegacyDevice) (old : Tz) (h : d.index = none) : legacyZone d.report old = .ok old := by
  unfold legacyZone LegacyDevice.report
  rw [h]
  rfl

theorem currentIndex_report (d : LegacyDevice) :
    currentIndex d.report = .ok (match d.index with | some i => .num i | none => .num (-1)) := by
  unfold currentIndex LegacyDevice.report
  cases d.index <;> rfl

/-- C59 for legacy devices: if the device knows its zone and the zone asked for is supported, then after setting the
time and updating, the time is what was asked for (to the second), in a zone that stands for the one asked for. -/
theorem C59_legacy_partial (d : LegacyDevice) (w : Wall) (hw : w.valid = true) (t old : Tz) (c i : Int)
    (hc : d.index = some c) (h0 : 0 ≤ c) (hi : getTimezoneIndex same t = .ok i) :
    ∃ cmd, legacyCommand same d.report w (some t) = .ok cmd ∧ legacyTime (d.obey cmd).report = .ok w ∧
      ∃ name, legacyZone (d.obey cmd).report old = .ok (.zone name) ∧ standsFor same t name := by
  obtain ⟨hi0, hi1, name, hn, hst, _⟩ := C43_lookup t i hi
  have hcur := currentIndex_report d
  rw [hc] at hcur
  have hcmd : legacyCommand same d.report w (some t) =
      (if Json.num c ≠ .num (-1) ∧ Json.num c ≠ .num i then
        .ok ("set_timezone", Dict.set (wallParams w) "index" (.num i)) else .ok ("set_time", wallParams w)) := by
    unfold legacyCommand
    simp only
    rw [hi, hcur]
    rfl
  by_cases hci : c = i
  · refine ⟨("set_time", wallParams w), ?_, ?_, name, ?_, hst⟩
    · rw [hcmd, if_neg (by rw [hci]; simp)]
    · exact legacyTime_report _ w hw (.inl rfl)
    · rw [legacyZone_report _ old c (by exact hc), hci, hn]
      rfl
  · refine ⟨("set_timezone", Dict.set (wallParams w) "index" (.num i)), ?_, ?_, name, ?_, hst⟩
    · rw [hcmd, if_pos ⟨by intro e; have := Json.num.inj e; omega, fun e => hci (Json.num.inj e)⟩]
    · exact legacyTime_report _ w hw (.inr ⟨i, rfl⟩)
    · rw [legacyZone_report _ old i rfl, hn]
      rfl

/-- C59 for legacy devices: a time without a zone is set as it is, and the zone stays. -/
theorem C59_legacy_naive (d : LegacyDevice) (w : Wall) (hw : w.valid = true) (old : Tz) :
    ∃ cmd, legacyCommand same d.report w none = .ok cmd ∧ legacyTime (d.obey cmd).report = .ok w ∧
      legacyZone (d.obey cmd).report old = legacyZone d.report old := by
  refine ⟨("set_time", wallParams w), rfl, legacyTime_report _ w hw (.inl rfl), ?_⟩
  cases hc : d.index with
  | none => rw [legacyZone_none d old hc, legacyZone_none _ old (by exact hc)]
  | some i => rw [legacyZone_report d old i hc, legacyZone_report _ old i (by exact hc)]

/-- C59 is false of legacy devices that do not report their zone: the zone that was asked for is not sent at all. -/
theorem C59_legacy_zone_lost (d : LegacyDevice) (w : Wall) (hc : d.index = none ∨ d.index = some (-1)) (t : Tz) (i : Int)
    (hi : getTimezoneIndex same t = .ok i) :
    legacyCommand same d.report w (some t) = .ok ("set_time", wallParams w) := by
  have hcur := currentIndex_report d
  unfold legacyCommand
  simp only
  rcases hc with hc | hc <;> rw [hc] at hcur <;> rw [hi, hcur] <;> rfl

/-- A device on UTC is set to Athens' time: the zone goes along; the hypotheses of `C59_legacy_partial` hold. -/
example : (⟨2024, 2, 29, 23, 59, 59⟩ : Wall).valid = true ∧ (⟨2023, 2, 29, 0, 0, 0⟩ : Wall).valid = false ∧
    getTimezoneIndex Example.utcLike (.zone "Europe/Athens") = .ok 48 ∧
    legacyCommand Example.utcLike (LegacyDevice.report ⟨[], some 38⟩) ⟨2024, 2, 29, 23, 59, 59⟩
      (some (.zone "Europe/Athens")) = .ok ("set_timezone",
        [("year", .num 2024), ("month", .num 2), ("mday", .num 29), ("hour", .num 23), ("min", .num 59),
         ("sec", .num 59), ("index", .num 48)]) := by decide +kernel

/-! ## C59: setting the clock of a SMART device -/

theorem tdiv_close (x : Int) : withinSecond (x.tdiv second * second) x := by
  unfold withinSecond
  have h1 := Int.mul_tdiv_add_tmod x second
  have h2 : (x.tmod second).natAbs < 1000000 := by
    rw [Int.natAbs_tmod]
    exact Nat.mod_lt _ (by decide)
  have h3 : second * x.tdiv second = x.tdiv second * second := Int.mul_comm _ _
  omega

theorem instantOf_meant (z : Zones) (dz : Tz) (m : Moment) : (instantOf z dz m).1 = meant z dz m := by
  cases m with
  | aware utc tz => rfl
  | naive wall => cases dz <;> rfl

theorem smartCommand_wf (z : Zones) (dz : Tz) (m : Moment) : Dict.WF (smartCommand z dz m) := by
  have hb : ∀ a b : Json, Dict.WF ([("timestamp", a), ("time_diff", b)] : Dict String Json) := by
    intro a b; unfold Dict.WF; simp [Dict.keys]
  unfold smartCommand
  simp only
  split
  · exact Dict.WF_set (hb _ _) _ _
  · exact hb _ _

theorem smartCommand_get (z : Zones) (dz : Tz) (m : Moment) :
    Dict.get? (smartCommand z dz m) "timestamp" = some (.num ((instantOf z dz m).1.tdiv second)) ∧
    Dict.get? (smartCommand z dz m) "time_diff" = some (.num ((instantOf z dz m).2.tdiv minute)) ∧
    Dict.get? (smartCommand z dz m) "region" = (regionOf m).map .str := by
  unfold smartCommand
  simp only
  cases regionOf m <;> exact ⟨rfl, rfl, rfl⟩

theorem smartObey_get (z : Zones) (dz : Tz) (m : Moment) (had : Dict String Json) :
    Dict.get? (smartObey had (smartCommand z dz m)) "timestamp" = some (.num ((instantOf z dz m).1.tdiv second)) ∧
    Dict.get? (smartObey had (smartCommand z dz m)) "time_diff" = some (.num ((instantOf z dz m).2.tdiv minute)) ∧
    Dict.get? (smartObey had (smartCommand z dz m)) "region" =
      (match regionOf m with | some r => some (.str r) | none => Dict.get? had "region") := by
  obtain ⟨h1, h2, h3⟩ := smartCommand_get z dz m
  have hwf := smartCommand_wf z dz m
  unfold smartObey
  rw [Dict.get?_update hwf, Dict.get?_update hwf, Dict.get?_update hwf, h1, h2, h3]
  refine ⟨rfl, rfl, ?_⟩
  cases regionOf m <;> rfl

/-- C59 for SMART devices: after setting the time and updating, the time read is the instant that was asked for, less
than a second off; a time without a zone is taken to be in the zone of the device. -/
theorem C59_smart_instant (z : Zones) (dz : Tz) (m : Moment) (had : Dict String Json) :
    ∃ t, smartTime (smartObey had (smartCommand z dz m)) = .ok t ∧
      withinSecond t (meant z dz m) := by
  unfold smartTime
  rw [(smartObey_get z dz m had).1]
  refine ⟨_, rfl, ?_⟩
  rw [← instantOf_meant]
  exact tdiv_close _

/-- C59 for SMART devices: if the time was given in a named zone, the device's zone is that one afterwards. -/
theorem C59_smart_zone (z : Zones) (dz : Tz) (utc : Int) (key : String) (hk : z.known key = true) (hne : key ≠ "")
    (had : Dict String Json) :
    smartZone z (smartObey had (smartCommand z dz (.aware utc (.zone key)))) = .ok (.zone key) := by
  obtain ⟨_, h2, h3⟩ := smartObey_get z dz (.aware utc (.zone key)) had
  unfold smartZone
  rw [h2, h3]
  unfold regionOf
  simp only [if_neg hne, hk, if_true]

/-- C59 for SMART devices: if the time was given with a fixed offset of whole minutes under a name that is no zone's,
the device's zone has that name and offset afterwards. -/
theorem C59_smart_offset (z : Zones) (dz : Tz) (utc mins : Int) (name : String) (hk : z.known name = false)
    (hne : name ≠ "") (hm : -1440 < mins ∧ mins < 1440) (had : Dict String Json) :
    smartZone z (smartObey had (smartCommand z dz (.aware utc (.other (mins * minute) (some name))))) =
      .ok (.other (mins * minute) (some name)) := by
  obtain ⟨_, h2, h3⟩ := smartObey_get z dz (.aware utc (.other (mins * minute) (some name))) had
  have hd : (mins * minute).tdiv minute = mins := Int.mul_tdiv_cancel _ (by decide)
  unfold smartZone
  rw [h2, h3]
  unfold regionOf
  simp only [if_neg hne, hk, Bool.false_eq_true, if_false]
  show fixedZone ((z.at_ (.other (mins * minute) (some name)) utc).tdiv minute * minute) (some name) = _
  unfold Zones.at_
  simp only
  rw [hd]
  unfold fixedZone minute second
  rw [if_pos ⟨by omega, by omega⟩]

/-- C59 for SMART devices: a time without a zone leaves a named zone as it is. -/
theorem C59_smart_naive (z : Zones) (dz : Tz) (wall : Int) (had : Dict String Json) (key : String)
    (hr : Dict.get? had "region" = some (.str key)) (hk : z.known key = true) (hne : key ≠ "") :
    smartZone z (smartObey had (smartCommand z dz (.naive wall))) = .ok (.zone key) := by
  obtain ⟨_, h2, h3⟩ := smartObey_get z dz (.naive wall) had
  unfold smartZone
  rw [h2, h3]
  unfold regionOf
  simp only [hr, if_neg hne, hk, if_true]

/-- C59 is false of SMART devices when the time is given in a zone without a name: the offset is sent, but the device
keeps the region it had, and that decides. -/
theorem C59_smart_old_region (z : Zones) (dz : Tz) (utc off : Int) (had : Dict String Json) (key : String)
    (hr : Dict.get? had "region" = some (.str key)) (hk : z.known key = true) (hne : key ≠ "") :
    smartZone z (smartObey had (smartCommand z dz (.aware utc (.other off none)))) = .ok (.zone key) := by
  obtain ⟨_, h2, h3⟩ := smartObey_get z dz (.aware utc (.other off none)) had
  unfold smartZone
  rw [h2, h3]
  unfold regionOf
  simp only [hr, if_neg hne, hk, if_true]

/-! ## C59: cameras -/

/-- C59 for cameras: the seconds that are sent are those of the instant asked for, and a named zone is sent along. -/
theorem C59_camera_instant (z : Zones) (host dz : Tz) (m : Moment) :
    withinSecond ((cameraCommands z host dz m).1.1 * second)
      (meant z dz m) ∧
    ∀ utc key, m = .aware utc (.zone key) → (cameraCommands z host dz m).2 = some key := by
  refine ⟨?_, ?_⟩
  · rw [← instantOf_meant]
    cases m <;> exact tdiv_close _
  · rintro utc key rfl; rfl

/-- C59 for cameras: the local time that is sent is that of the time asked for - if the computer is in the same zone. -/
theorem C59_camera_local_partial (z : Zones) (host dz tz : Tz) (utc : Int) (h : z.at_ host utc = z.at_ tz utc) :
    (cameraCommands z host dz (.aware utc tz)).1.2 = utc + z.at_ tz utc := by
  rw [← h]; rfl

/-- C59 is false of cameras: a computer in another zone sends its own local time as the camera's. -/
theorem C59_camera_host_time (z : Zones) (dz : Tz) (utc a b : Int) (h : a ≠ b) :
    (cameraCommands z (.other a none) dz (.aware utc (.other b none))).1.2 ≠ utc + z.at_ (.other b none) utc := by
  show utc + a ≠ utc + b
  omega

/-- Zones for the examples: only Tokyo is known. -/
def Example.tokyo : Zones :=
  ⟨fun n => n = "Asia/Tokyo", fun _ _ => 540 * minute, fun _ w => w - 540 * minute⟩

example : Example.tokyo.known "Asia/Tokyo" = true ∧ Example.tokyo.known "XYZ" = false ∧
    smartCommand Example.tokyo (.zone "Asia/Tokyo") (.naive (540 * minute + 1500000)) =
      [("timestamp", .num 1), ("time_diff", .num 540)] ∧
    cameraCommands Example.tokyo (.other 0 none) (.zone "Asia/Tokyo") (.aware 1500000 (.zone "Asia/Tokyo")) =
      ((1, 1500000), some "Asia/Tokyo") := by decide +kernel

end Kasa.Time
