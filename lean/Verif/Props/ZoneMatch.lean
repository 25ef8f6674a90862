import Verif.Spec.ZoneMatch
import Verif.Props.TimeZone
/-!
# C59: which zone a legacy device is set to
-/

namespace Kasa.Time

open TimeSpec

/-- The days of a month of a leap year or another one. -/
def dim (leap : Bool) (m : Nat) : Nat :=
  match m with
  | 2 => if leap then 29 else 28
  | 4 | 6 | 9 | 11 => 30
  | _ => 31

/-- Month and day after `i` days of the year. -/
def md (leap : Bool) : Nat → Nat × Nat
  | 0 => (1, 1)
  | i + 1 => if (md leap i).2 < dim leap (md leap i).1 then ((md leap i).1, (md leap i).2 + 1) else ((md leap i).1 + 1, 1)

/-- The same, from the front. -/
def mdFrom (leap : Bool) : Nat → Nat × Nat → Nat × Nat
  | 0, p => p
  | i + 1, p => mdFrom leap i (if p.2 < dim leap p.1 then (p.1, p.2 + 1) else (p.1 + 1, 1))

/-- A check of all the days in a row. -/
def allDays (leap : Bool) (ok : Nat → Nat × Nat → Bool) : Nat → Nat → Nat × Nat → Bool
  | 0, _, _ => true
  | n + 1, i, p => ok i p && allDays leap ok n (i + 1) (if p.2 < dim leap p.1 then (p.1, p.2 + 1) else (p.1 + 1, 1))

theorem allDays_md (leap : Bool) (ok : Nat → Nat × Nat → Bool) : ∀ n i, allDays leap ok n i (md leap i) = true →
    ∀ k, k < n → ok (i + k) (md leap (i + k)) = true := by
  intro n
  induction n with
  | zero => intro i _ k hk; omega
  | succ n ih =>
    intro i h k hk
    simp only [allDays, Bool.and_eq_true] at h
    cases k with
    | zero => exact h.1
    | succ k =>
      have := ih (i + 1) (by rw [md]; exact h.2) k (by omega)
      rwa [show i + 1 + k = i + (k + 1) by omega] at this

/-- What is true of the days of a year but the last of a leap year. -/
def dayOk (leap : Bool) (i : Nat) (p : Nat × Nat) : Bool :=
  decide (1 ≤ p.1 ∧ p.1 ≤ 12 ∧ 1 ≤ p.2 ∧ p.2 ≤ dim leap p.1 ∧ ¬ (p.1 = 12 ∧ p.2 = 31 ∧ (leap = true ∨ i < 364)))

theorem md_ok (leap : Bool) (i : Nat) (h : i < 365) : dayOk leap i (md leap i) = true := by
  have hall : ∀ l, allDays l (dayOk l) 365 0 (1, 1) = true := by decide +kernel
  have := allDays_md leap (dayOk leap) 365 0 (hall leap) i h
  simpa using this

/-- The days before a month. -/
def before (leap : Bool) (m : Nat) : Nat := ((List.range m).tail.map (dim leap)).sum

theorem md_before : ∀ leap : Bool, ∀ m : Fin 13, 1 ≤ m.val → mdFrom leap (before leap m) (1, 1) = (m.val, 1) := by decide +kernel

theorem mdFrom_md (leap : Bool) : ∀ n i, mdFrom leap n (md leap i) = md leap (i + n) := by
  intro n
  induction n with
  | zero => intro i; rfl
  | succ n ih =>
    intro i
    have := ih (i + 1)
    rw [md] at this
    rw [mdFrom, this]
    congr 1
    omega

theorem md_in (leap : Bool) (m i : Nat) (h : md leap i = (m, 1)) : ∀ d, d < dim leap m → md leap (i + d) = (m, d + 1) := by
  intro d
  induction d with
  | zero => intro _; exact h
  | succ d ih =>
    intro hd
    have := ih (by omega)
    show md leap ((i + d) + 1) = _
    rw [md, this]
    simp only [if_pos (show d + 1 < dim leap m by omega)]

theorem md_onto (leap : Bool) (m d : Nat) (hm : 1 ≤ m) (hm2 : m ≤ 12) (hd : 1 ≤ d) (hd2 : d ≤ dim leap m)
    (hx : ¬ (m = 12 ∧ d = 31 ∧ leap = true)) : ∃ i, i < 365 ∧ md leap i = (m, d) := by
  have h1 := md_before leap ⟨m, by omega⟩ hm
  have h2 := mdFrom_md leap (before leap m) 0
  have h3 : md leap (before leap m) = (m, 1) := by
    rw [← h1, ← (show md leap 0 = (1, 1) from rfl), h2, Nat.zero_add]
  refine ⟨before leap m + (d - 1), ?_, ?_⟩
  · have hb : ∀ l : Bool, ∀ m : Fin 13, 1 ≤ m.val → before l m + dim l m ≤ 365 + (if l = true ∧ m.val = 12 then 1 else 0) := by decide +kernel
    have := hb leap ⟨m, by omega⟩ hm
    simp only at this
    by_cases hc : leap = true ∧ m = 12
    · rw [if_pos hc] at this
      obtain ⟨rfl, rfl⟩ := hc
      have hd31 : d ≠ 31 := fun h => hx ⟨rfl, h, rfl⟩
      have : dim true 12 = 31 := rfl
      omega
    · rw [if_neg hc] at this
      omega
  · rw [md_in leap m _ h3 (d - 1) (by omega)]
    congr 1
    omega

/-- Is it a leap year? -/
def leap (year : Int) : Bool := decide (daysIn year 2 = 29)

theorem daysIn_dim (year : Int) (m : Nat) : daysIn year (m : Int) = (dim (leap year) m : Int) := by
  by_cases h2 : m = 2
  · subst h2
    unfold leap dim
    by_cases hl : daysIn year 2 = 29
    · simp only [hl, decide_true, if_true]
      exact hl
    · simp only [hl, decide_false]
      revert hl
      unfold daysIn
      simp only [if_true]
      split <;> simp
  · unfold daysIn
    rw [if_neg (by omega)]
    unfold dim
    by_cases h4 : m = 4 ∨ m = 6 ∨ m = 9 ∨ m = 11
    · rw [if_pos (by omega)]
      rcases h4 with rfl | rfl | rfl | rfl <;> rfl
    · rw [if_neg (by omega)]
      split <;> first | rfl | omega

/-- Noon of the day of the year. -/
def noonOf (year : Int) (p : Nat × Nat) : Wall := ⟨year, p.1, p.2, 12, 0, 0⟩

theorem plusDays_md (year : Int) : ∀ i, i < 365 → plusDays ⟨year, 1, 1, 12, 0, 0⟩ i = noonOf year (md (leap year) i) := by
  intro i
  induction i with
  | zero => intro _; rfl
  | succ i ih =>
    intro hi
    have hok := md_ok (leap year) i (by omega)
    unfold dayOk at hok
    have hok := of_decide_eq_true hok
    rw [plusDays, ih (by omega), md]
    generalize md (leap year) i = p at *
    obtain ⟨m, d⟩ := p
    unfold nextDay noonOf
    simp only at hok ⊢
    rw [daysIn_dim]
    by_cases hd : d < dim (leap year) m
    · rw [if_pos (by omega), if_pos hd]
      simp
    · rw [if_neg (by omega), if_neg hd]
      have hm : m < 12 := by
        by_cases hm : m = 12
        · exfalso
          subst hm
          have : dim (leap year) 12 = 31 := rfl
          exact hok.2.2.2.2 ⟨rfl, by omega, .inr (by omega)⟩
        · omega
      rw [if_pos (by omega)]
      simp

theorem sameOn_iff (a b : Wall → Option Int) (start : Wall) (l : List Nat) :
    sameOn a b start l = true ↔ ∀ i ∈ l, a (plusDays start i) = b (plusDays start i) := by
  induction l with
  | nil => simp [sameOn]
  | cons i l ih =>
    rw [sameOn]
    by_cases h : a (plusDays start i) = b (plusDays start i)
    · rw [if_neg (by simp [h]), ih]
      simp [h]
    · rw [if_pos h]
      simp [h]

/-- C59: zones are taken for the same exactly if they have the same offset at noon of every day of the current year, the last day of a
leap year left out. -/
theorem C59_same_zone (year : Int) (hy : 1 ≤ year ∧ year ≤ 9999) (a b : Wall → Option Int) :
    isSame year a b = true ↔ AgreeAtNoon year a b := by
  unfold isSame
  rw [sameOn_iff]
  constructor
  · rintro h ⟨y, m, d, hh, mm, ss⟩ ⟨hv, hy', h12, h0, h00, hx⟩
    simp only at hy' h12 h0 h00 hx
    subst hy' h12 h0 h00
    unfold Wall.valid at hv
    have hv := of_decide_eq_true hv
    simp only at hv
    obtain ⟨m, rfl⟩ := Int.eq_ofNat_of_zero_le (show 0 ≤ m by omega)
    obtain ⟨d, rfl⟩ := Int.eq_ofNat_of_zero_le (show 0 ≤ d by omega)
    rw [daysIn_dim] at hv
    obtain ⟨i, hi, hmd⟩ := md_onto (leap y) m d (by omega) (by omega) (by omega) (by omega) (by
      rintro ⟨rfl, rfl, hl⟩
      exact hx ⟨rfl, rfl, of_decide_eq_true hl⟩)
    have := h i (List.mem_range.mpr hi)
    rwa [plusDays_md y i hi, hmd] at this
  · intro h i hi
    have hi := List.mem_range.mp hi
    rw [plusDays_md year i hi]
    have hok := md_ok (leap year) i hi
    unfold dayOk at hok
    have hok := of_decide_eq_true hok
    apply h
    refine ⟨?_, rfl, rfl, rfl, rfl, ?_⟩
    · unfold Wall.valid noonOf
      apply decide_eq_true
      simp only
      rw [daysIn_dim]
      omega
    · rintro ⟨h1, h2, h3⟩
      simp only [noonOf] at h1 h2
      exact hok.2.2.2.2 ⟨by omega, by omega, .inl (decide_eq_true h3)⟩

/-- C59, legacy devices that report their zone: after setting a time in some zone, the zone read is that one, or has the same offset at
noon of the days of the current year.  This is partial: they may differ at other times. -/
theorem C59_legacy_offsets_partial (zones : String → Wall → Option Int) (year : Int) (hy : 1 ≤ year ∧ year ≤ 9999) (d : LegacyDevice) (w : Wall)
    (hw : w.valid = true) (t old : Tz) (c i : Int) (hc : d.index = some c) (h0 : 0 ≤ c)
    (hi : getTimezoneIndex (sameZone zones year) t = .ok i) :
    ∃ cmd, legacyCommand (sameZone zones year) d.report w (some t) = .ok cmd ∧ legacyTime (d.obey cmd).report = .ok w ∧
      ∃ name, legacyZone (d.obey cmd).report old = .ok (.zone name) ∧
        (t = .zone name ∨ AgreeAtNoon year (utcoffset zones t) (utcoffset zones (.zone name))) := by
  obtain ⟨cmd, h1, h2, name, h3, h4⟩ := C59_legacy_partial d w hw t old c i hc h0 hi
  refine ⟨cmd, h1, h2, name, h3, ?_⟩
  rcases h4 with h4 | h4
  · exact .inl h4
  · exact .inr ((C59_same_zone year hy _ _).mp h4)

/-- C59: an index is found for every zone that has the offsets of some zone of the table. -/
theorem C59_zone_found (zones : String → Wall → Option Int) (year : Int) (hy : 1 ≤ year ∧ year ≤ 9999) (t : Tz) (name : String)
    (hn : name ∈ table) (hs : SameOffsets (utcoffset zones t) (zones name)) :
    ∃ i, getTimezoneIndex (sameZone zones year) t = .ok i := by
  obtain ⟨k, hk⟩ := List.getElem?_of_mem hn
  have hlen : table.length = 110 := by decide +kernel
  have hlt : k < 110 := by
    rw [← hlen]
    exact (List.getElem?_eq_some_iff.mp hk).1
  refine C43_found t (k : Int) (by omega) (by omega) name ?_ ((C59_same_zone year hy _ _).mpr fun w hw => hs w hw.1)
  unfold getTimezone
  rw [if_neg (by omega), if_neg (by omega), Int.toNat_natCast, hk]

/-- C59 is false where zones differ at other times than noon: zones that change on the same days at different hours are taken for the
same, in every year. -/
theorem C59_hours_counterexample (year : Int) (hy : 1 ≤ year ∧ year ≤ 9999) :
    ∃ a b : Wall → Option Int, isSame year a b = true ∧ ¬ SameOffsets a b ∧ ∃ w, w.valid = true ∧ w.year = year ∧ a w ≠ b w := by
  refine ⟨fun w => some (if (w.month, w.day, w.hour) = (3, 10, 0) then 1 else 0), fun _ => some 0, (C59_same_zone year hy _ _).mpr ?_, ?_, ?_⟩
  · rintro w ⟨_, _, h, _⟩
    simp [h]
  · intro h
    have := h ⟨2024, 3, 10, 0, 0, 0⟩ (by decide)
    simp at this
  · refine ⟨⟨year, 3, 10, 0, 0, 0⟩, ?_, rfl, by simp⟩
    unfold Wall.valid
    apply decide_eq_true
    simp only
    rw [show (3 : Int) = ((3 : Nat) : Int) from rfl, daysIn_dim]
    have : dim (leap year) 3 = 31 := rfl
    omega

/-- C59 is false of the last day of leap years, which is never looked at. -/
theorem C59_leap_counterexample : ∃ a b : Wall → Option Int, isSame 2024 a b = true ∧ a ⟨2024, 12, 31, 12, 0, 0⟩ ≠ b ⟨2024, 12, 31, 12, 0, 0⟩ := by
  refine ⟨fun w => some (if (w.month, w.day) = (12, 31) then 1 else 0), fun _ => some 0, (C59_same_zone 2024 (by omega) _ _).mpr ?_, by simp⟩
  rintro w ⟨_, _, _, _, _, h⟩
  have : ¬ (w.month = 12 ∧ w.day = 31) := fun hx => h ⟨hx.1, hx.2, by decide⟩
  simp [this]

/-! Cases. -/

/-- Zones in summer time from April to September. -/
def sampleZones (key : String) (w : Wall) : Option Int :=
  if key = "Europe/Athens" ∨ key = "Europe/Nicosia" then some (if 4 ≤ w.month ∧ w.month ≤ 9 then 10800000000 else 7200000000)
  else some (key.length : Int)

example : AgreeAtNoon 2024 (sampleZones "Europe/Nicosia") (sampleZones "Europe/Athens") := fun _ _ => rfl
example : isSame 2024 (sampleZones "UCT") (sampleZones "Europe/Athens") = false := by decide +kernel
example : isSame 2023 (utcoffset sampleZones (.other 3 none)) (sampleZones "UCT") = true := by decide +kernel
example : getTimezoneIndex (sameZone sampleZones 2024) (.zone "Europe/Nicosia") = .ok 48 := by decide +kernel

end Kasa.Time
