import Verif.Model.Alarm
import Verif.Lemmas.Num
/-!
# C39: alarm settings
-/

namespace Kasa.Alarm

/-! ## Hubs and sensors -/

/-- The levels, and the names under which the device knows them. -/
def levelNames : List String := ["mute", "low", "normal", "high"]

/-- What a caller may give as a volume, and its level. -/
def HasLevel (v : PyV) (level : Nat) : Prop :=
  (v = .num (.int level) ∧ level < 4) ∨ (∃ b, v = .num (.bool b) ∧ level = b.toNat) ∨ (∃ s, v = .str s ∧ levelNames[level]? = some s)

theorem any_volumes (s : String) : volumes.any (fun p => p.2 == s) = true ↔ s ∈ levelNames := by
  simp only [volumes, levelNames, List.any_cons, List.any_nil, Bool.or_false, Bool.or_eq_true, beq_iff_eq, List.mem_cons, List.not_mem_nil,
    or_false]
  constructor
  · rintro (h | h | h | h) <;> simp [h.symm]
  · rintro (h | h | h | h) <;> simp [h]

theorem volumeOf_level (i : Int) : (∃ n : Nat, i = n ∧ n < 4 ∧ levelNames[n]? = some (volumeOf i)) ∨ (¬ (0 ≤ i ∧ i < 4) ∧ volumeOf i = "invalid") := by
  by_cases h : 0 ≤ i ∧ i < 4
  · left
    have : i = 0 ∨ i = 1 ∨ i = 2 ∨ i = 3 := by omega
    rcases this with h | h | h | h <;> subst h
    · exact ⟨0, rfl, by decide, by decide⟩
    · exact ⟨1, rfl, by decide, by decide⟩
    · exact ⟨2, rfl, by decide, by decide⟩
    · exact ⟨3, rfl, by decide, by decide⟩
  · right
    refine ⟨h, ?_⟩
    unfold volumeOf
    have : volumes.find? (fun p => p.1 == i) = none := by
      apply List.find?_eq_none.mpr
      intro p hp
      simp [volumes] at hp
      rcases hp with hp | hp | hp | hp <;> subst hp <;> simp <;> omega
    rw [this]

theorem mem_levelNames (s : String) : s ∈ levelNames ↔ ∃ n : Nat, levelNames[n]? = some s := by
  constructor
  · intro h; exact List.getElem?_of_mem h
  · rintro ⟨n, h⟩; exact List.mem_of_getElem? h

theorem checkVolume_spec (v : PyV) :
    (∀ level, HasLevel v level → ∃ s, levelNames[level]? = some s ∧ checkVolume v = .ok s) ∧
    ((∀ level, ¬ HasLevel v level) → checkVolume v = .error (.other "ValueError")) := by
  have hint : ∀ (i : Int), (∃ n : Nat, i = n ∧ n < 4 ∧ levelNames[n]? = some (volumeOf i) ∧
      (if volumes.any (fun p => p.2 == volumeOf i) then (.ok (volumeOf i) : Except Exc String) else .error (.other "ValueError")) = .ok (volumeOf i)) ∨
      (¬ (0 ≤ i ∧ i < 4) ∧
        (if volumes.any (fun p => p.2 == volumeOf i) then (.ok (volumeOf i) : Except Exc String) else .error (.other "ValueError")) = .error (.other "ValueError")) := by
    intro i
    rcases volumeOf_level i with ⟨n, h1, h2, h3⟩ | ⟨h1, h2⟩
    · left
      refine ⟨n, h1, h2, h3, ?_⟩
      rw [if_pos ((any_volumes _).mpr ((mem_levelNames _).mpr ⟨n, h3⟩))]
    · right
      refine ⟨h1, ?_⟩
      rw [if_neg]
      intro h
      have := (any_volumes _).mp h
      rw [h2] at this
      revert this
      decide
  cases v with
  | str s =>
    have hc : checkVolume (.str s) = if volumes.any (fun p => p.2 == s) then .ok s else .error (.other "ValueError") := rfl
    constructor
    · rintro level (⟨h, -⟩ | ⟨b, h, -⟩ | ⟨s', h, hl⟩)
      · cases h
      · cases h
      · cases h
        refine ⟨s, hl, ?_⟩
        rw [hc, if_pos ((any_volumes _).mpr ((mem_levelNames _).mpr ⟨level, hl⟩))]
    · intro h
      rw [hc, if_neg]
      intro hm
      obtain ⟨n, hn⟩ := (mem_levelNames _).mp ((any_volumes _).mp hm)
      exact h n (Or.inr (Or.inr ⟨s, rfl, hn⟩))
  | arr xs =>
    constructor
    · rintro level (⟨h, -⟩ | ⟨b, h, -⟩ | ⟨s', h, -⟩) <;> cases h
    · intro _; rfl
  | obj kvs =>
    constructor
    · rintro level (⟨h, -⟩ | ⟨b, h, -⟩ | ⟨s', h, -⟩) <;> cases h
    · intro _; rfl
  | num x =>
    cases x with
    | int i =>
      have hc : checkVolume (.num (.int i)) = if volumes.any (fun p => p.2 == volumeOf i) then .ok (volumeOf i) else .error (.other "ValueError") := rfl
      rcases hint i with ⟨n, h1, h2, h3, h4⟩ | ⟨h1, h2⟩
      · constructor
        · rintro level (⟨h, -⟩ | ⟨b, h, -⟩ | ⟨s', h, -⟩)
          · cases h
            have : level = n := by omega
            subst this
            exact ⟨_, h3, hc.trans h4⟩
          · cases h
          · cases h
        · intro h
          exact absurd (Or.inl ⟨by rw [h1], h2⟩) (h n)
      · constructor
        · rintro level (⟨h, hl⟩ | ⟨b, h, -⟩ | ⟨s', h, -⟩)
          · cases h; omega
          · cases h
          · cases h
        · intro _; exact hc.trans h2
    | bool b =>
      constructor
      · rintro level (⟨h, hl⟩ | ⟨b', h, hl⟩ | ⟨s', h, -⟩)
        · cases h
        · cases h
          subst hl
          cases b
          · exact ⟨_, rfl, by decide⟩
          · exact ⟨_, rfl, by decide⟩
        · cases h
      · intro h
        exact absurd (Or.inr (Or.inl ⟨b, rfl, rfl⟩)) (h b.toNat)
    | float x =>
      constructor
      · rintro level (⟨h, -⟩ | ⟨b, h, -⟩ | ⟨s', h, -⟩) <;> cases h
      · intro _; rfl
    | inf p =>
      constructor
      · rintro level (⟨h, -⟩ | ⟨b, h, -⟩ | ⟨s', h, -⟩) <;> cases h
      · intro _; rfl
    | nan =>
      constructor
      · rintro level (⟨h, -⟩ | ⟨b, h, -⟩ | ⟨s', h, -⟩) <;> cases h
      · intro _; rfl
    | other t =>
      constructor
      · rintro level (⟨h, -⟩ | ⟨b, h, -⟩ | ⟨s', h, -⟩) <;> cases h
      · intro _; rfl

/-- C39, volumes: a level by name is sent as the name, the other settings are kept as last read, and the level is what is then
read; a volume without a level is refused.  Missing: levels by number, see `C39_volume_number`. -/
theorem C39_volume_partial (d : Data) (v : PyV) :
    (∀ level s, levelNames[level]? = some s → ∃ c, setVolume d (.str s) = .ok c ∧ c.method = "set_alarm_configure" ∧
      Dict.get? c.params "volume" = some (.str s) ∧ (∀ k, k ≠ "volume" → Dict.get? c.params k = Dict.get? d.config k) ∧
      readVolume c.params = .ok (level : Nat)) ∧
    ((∀ level, ¬ HasLevel v level) → setVolume d v = .error (.other "ValueError")) := by
  constructor
  · intro level s h
    obtain ⟨s', h1, h2⟩ := (checkVolume_spec (.str s)).1 level (Or.inr (Or.inr ⟨s, rfl, h⟩))
    refine ⟨configure (Dict.set d.config "volume" (.str s)), ?_, rfl, Dict.get?_set_self _ _ _,
      fun k hk => Dict.get?_set_ne _ _ (fun h => hk h.symm), ?_⟩
    · unfold setVolume; rw [h2]; rfl
    · unfold readVolume configure
      rw [Dict.get?_set_self]
      have : level < 4 := (List.getElem?_eq_some_iff.mp h).1
      have hl : level = 0 ∨ level = 1 ∨ level = 2 ∨ level = 3 := by omega
      rcases hl with hl | hl | hl | hl <;> subst hl <;> cases h <;> decide
  · intro h
    unfold setVolume
    rw [(checkVolume_spec v).2 h]
    rfl

/-- C39 is false of a volume by number: it is accepted, but sent as the number, not as the name the device reports; read back,
it is no volume. -/
theorem C39_volume_number (d : Data) (level : Nat) (hl : level < 4) :
    ∃ c, setVolume d (.num (.int level)) = .ok c ∧ Dict.get? c.params "volume" = some (.num (.int level)) ∧
      readVolume c.params = .error (.other "KeyError") := by
  obtain ⟨s', h1, h2⟩ := (checkVolume_spec (.num (.int level))).1 level (Or.inl ⟨rfl, hl⟩)
  refine ⟨configure (Dict.set d.config "volume" (.num (.int level))), ?_, Dict.get?_set_self _ _ _, ?_⟩
  · unfold setVolume; rw [h2]; rfl
  · unfold readVolume configure
    rw [Dict.get?_set_self]

/-- C39, durations: accepted are 1 to 600 seconds, and NaN; the other settings are kept. -/
theorem C39_duration (d : Data) (x : Num) :
    ((x = .nan ∨ InRange x 1 600) → ∃ c, setDuration d x = .ok c ∧ c.method = "set_alarm_configure" ∧
      Dict.get? c.params "duration" = some (.num x) ∧ (∀ k, k ≠ "duration" → Dict.get? c.params k = Dict.get? d.config k)) ∧
    (¬ (x = .nan ∨ InRange x 1 600) → ∃ e, setDuration d x = .error e) := by
  have hiff := refuseOutside_ok_iff x 1 600 (.other "ValueError")
  constructor
  · intro h
    refine ⟨configure (Dict.set d.config "duration" (.num x)), ?_, rfl, Dict.get?_set_self _ _ _,
      fun k hk => Dict.get?_set_ne _ _ (fun h => hk h.symm)⟩
    unfold setDuration checkDuration
    rw [hiff.mpr h]
    rfl
  · intro h
    unfold setDuration checkDuration
    cases hr : refuseOutside x 1 600 (.other "ValueError") with
    | ok u => exact absurd (hiff.mp hr) h
    | error e => exact ⟨e, rfl⟩

/-- C39, sounds: accepted are those the device lists; the other settings are kept. -/
theorem C39_sound (d : Data) (s : String) :
    (s ∈ d.sounds → ∃ c, setSound d s = .ok c ∧ c.method = "set_alarm_configure" ∧ Dict.get? c.params "type" = some (.str s) ∧
      (∀ k, k ≠ "type" → Dict.get? c.params k = Dict.get? d.config k)) ∧
    (s ∉ d.sounds → setSound d s = .error (.other "ValueError")) := by
  constructor
  · intro h
    refine ⟨configure (Dict.set d.config "type" (.str s)), ?_, rfl, Dict.get?_set_self _ _ _,
      fun k hk => Dict.get?_set_ne _ _ (fun h => hk h.symm)⟩
    unfold setSound checkSound
    rw [if_pos (List.contains_iff_mem.mpr h)]
    rfl
  · intro h
    unfold setSound checkSound
    rw [if_neg (fun hc => h (List.contains_iff_mem.mp hc))]
    rfl

theorem checkSound_ok (sounds : List String) (s : String) : checkSound sounds s = .ok () ↔ s ∈ sounds := by
  unfold checkSound
  by_cases h : s ∈ sounds
  · rw [if_pos (List.contains_iff_mem.mpr h)]; exact iff_of_true rfl h
  · rw [if_neg (fun hc => h (List.contains_iff_mem.mp hc))]
    exact iff_of_false (fun hc => by cases hc) h

/-- C39, playing: exactly what was given is sent, a volume always by its name, whether it was given by name or by number;
anything invalid is refused. -/
theorem C39_play (d : Data) (duration : Option Num) (volume : Option PyV) (sound : Option String) :
    (∀ c, play d duration volume sound = .ok c → c.method = "play_alarm" ∧
      Dict.get? c.params "alarm_duration" = duration.map .num ∧ (∀ x, duration = some x → x = .nan ∨ InRange x 1 600) ∧
      (volume = none → Dict.get? c.params "alarm_volume" = none) ∧
      (∀ v, volume = some v → ∃ level s, HasLevel v level ∧ levelNames[level]? = some s ∧ Dict.get? c.params "alarm_volume" = some (.str s)) ∧
      Dict.get? c.params "alarm_type" = sound.map .str ∧ (∀ s, sound = some s → s ∈ d.sounds) ∧
      (∀ k ∈ Dict.keys c.params, k ∈ ["alarm_duration", "alarm_volume", "alarm_type"])) ∧
    ((∀ x, duration = some x → x = .nan ∨ InRange x 1 600) → (∀ v, volume = some v → ∃ level, HasLevel v level) →
      (∀ s, sound = some s → s ∈ d.sounds) → ∃ c, play d duration volume sound = .ok c) := by
  have hD : ∀ p, (∀ p', playDuration p duration = .ok p' →
        (∀ x, duration = some x → x = .nan ∨ InRange x 1 600) ∧ p' = match duration with | some x => Dict.set p "alarm_duration" (.num x) | none => p) ∧
      ((∀ x, duration = some x → x = .nan ∨ InRange x 1 600) → ∃ p', playDuration p duration = .ok p') := by
    intro p
    cases duration with
    | none => exact ⟨fun p' h => ⟨fun x hx => (by cases hx), (by cases h; rfl)⟩, fun _ => ⟨p, rfl⟩⟩
    | some x =>
      have hiff := refuseOutside_ok_iff x 1 600 (.other "ValueError")
      constructor
      · intro p' h
        change (refuseOutside x 1 600 _ >>= fun _ => pure _) = _ at h
        cases hr : refuseOutside x 1 600 (.other "ValueError") with
        | ok u =>
          rw [hr] at h
          cases h
          exact ⟨fun y hy => by cases hy; exact hiff.mp hr, rfl⟩
        | error e => rw [hr] at h; cases h
      · intro h
        refine ⟨Dict.set p "alarm_duration" (.num x), ?_⟩
        change (refuseOutside x 1 600 _ >>= fun _ => pure _) = _
        rw [hiff.mpr (h x rfl)]
        rfl
  have hV : ∀ p, (∀ p', playVolume p volume = .ok p' →
        (volume = none ∧ p' = p) ∨ ∃ v level s, volume = some v ∧ HasLevel v level ∧ levelNames[level]? = some s ∧ p' = Dict.set p "alarm_volume" (.str s)) ∧
      ((∀ v, volume = some v → ∃ level, HasLevel v level) → ∃ p', playVolume p volume = .ok p') := by
    intro p
    cases volume with
    | none => exact ⟨fun p' h => Or.inl ⟨rfl, by cases h; rfl⟩, fun _ => ⟨p, rfl⟩⟩
    | some v =>
      constructor
      · intro p' h
        by_cases hl : ∃ level, HasLevel v level
        · obtain ⟨level, hl⟩ := hl
          obtain ⟨s, h1, h2⟩ := (checkVolume_spec v).1 level hl
          change (checkVolume v >>= _) = _ at h
          rw [h2] at h
          cases h
          exact Or.inr ⟨v, level, s, rfl, hl, h1, rfl⟩
        · change (checkVolume v >>= _) = _ at h
          rw [(checkVolume_spec v).2 (fun level hc => hl ⟨level, hc⟩)] at h
          cases h
      · intro h
        obtain ⟨level, hl⟩ := h v rfl
        obtain ⟨s, h1, h2⟩ := (checkVolume_spec v).1 level hl
        refine ⟨Dict.set p "alarm_volume" (.str s), ?_⟩
        change (checkVolume v >>= _) = _
        rw [h2]
        rfl
  have hS : ∀ p, (∀ p', playSound d.sounds p sound = .ok p' →
        (∀ s, sound = some s → s ∈ d.sounds) ∧ p' = match sound with | some s => Dict.set p "alarm_type" (.str s) | none => p) ∧
      ((∀ s, sound = some s → s ∈ d.sounds) → ∃ p', playSound d.sounds p sound = .ok p') := by
    intro p
    cases sound with
    | none => exact ⟨fun p' h => ⟨fun x hx => (by cases hx), (by cases h; rfl)⟩, fun _ => ⟨p, rfl⟩⟩
    | some s =>
      constructor
      · intro p' h
        change (checkSound d.sounds s >>= _) = _ at h
        cases hr : checkSound d.sounds s with
        | ok u =>
          rw [hr] at h
          cases h
          exact ⟨fun y hy => by cases hy; exact (checkSound_ok _ _).mp hr, rfl⟩
        | error e => rw [hr] at h; cases h
      · intro h
        refine ⟨Dict.set p "alarm_type" (.str s), ?_⟩
        change (checkSound d.sounds s >>= _) = _
        rw [(checkSound_ok _ _).mpr (h s rfl)]
        rfl
  constructor
  · intro c hc
    unfold play at hc
    cases h1 : playDuration [] duration with
    | error e => rw [h1] at hc; cases hc
    | ok p1 =>
      cases h2 : playVolume p1 volume with
      | error e => rw [h1] at hc; change (playVolume p1 volume >>= _) = _ at hc; rw [h2] at hc; cases hc
      | ok p2 =>
        cases h3 : playSound d.sounds p2 sound with
        | error e =>
          rw [h1] at hc; change (playVolume p1 volume >>= _) = _ at hc; rw [h2] at hc
          change (playSound d.sounds p2 sound >>= _) = _ at hc; rw [h3] at hc; cases hc
        | ok p3 =>
          rw [h1] at hc; change (playVolume p1 volume >>= _) = _ at hc; rw [h2] at hc
          change (playSound d.sounds p2 sound >>= _) = _ at hc; rw [h3] at hc
          cases hc
          obtain ⟨hd1, hd2⟩ := (hD []).1 p1 h1
          have hv := (hV p1).1 p2 h2
          obtain ⟨hs1, hs2⟩ := (hS p2).1 p3 h3
          have e1 : Dict.get? p1 "alarm_duration" = duration.map .num ∧ Dict.get? p1 "alarm_volume" = none ∧ Dict.get? p1 "alarm_type" = none ∧
              ∀ k ∈ Dict.keys p1, k ∈ ["alarm_duration", "alarm_volume", "alarm_type"] := by
            subst hd2
            cases duration with
            | none => exact ⟨rfl, rfl, rfl, fun k hk => by cases hk⟩
            | some x => exact ⟨rfl, rfl, rfl, fun k hk => by simp [Dict.set, Dict.keys] at hk; subst hk; simp⟩
          obtain ⟨a1, a2, a3, a4⟩ := e1
          have e2 : Dict.get? p2 "alarm_duration" = duration.map .num ∧ (volume = none → Dict.get? p2 "alarm_volume" = none) ∧
              (∀ v, volume = some v → ∃ level s, HasLevel v level ∧ levelNames[level]? = some s ∧ Dict.get? p2 "alarm_volume" = some (.str s)) ∧
              Dict.get? p2 "alarm_type" = none ∧ ∀ k ∈ Dict.keys p2, k ∈ ["alarm_duration", "alarm_volume", "alarm_type"] := by
            rcases hv with ⟨hv1, hv2⟩ | ⟨v, level, s, hv1, hv2, hv3, hv4⟩
            · subst hv2
              exact ⟨a1, fun _ => a2, fun v hv => (by rw [hv1] at hv; cases hv), a3, a4⟩
            · subst hv4
              refine ⟨?_, fun h => (by rw [hv1] at h; cases h), ?_, ?_, ?_⟩
              · rw [Dict.get?_set_ne _ _ (by decide)]; exact a1
              · intro v' h
                rw [hv1] at h
                cases h
                exact ⟨level, s, hv2, hv3, Dict.get?_set_self _ _ _⟩
              · rw [Dict.get?_set_ne _ _ (by decide)]; exact a3
              · intro k hk
                rcases (Dict.mem_keys_set _ _ _ _).mp hk with hk | hk
                · simp [hk]
                · exact a4 k hk
          obtain ⟨b1, b2, b3, b4, b5⟩ := e2
          cases sound with
          | none =>
            simp only at hs2
            subst hs2
            exact ⟨rfl, b1, hd1, b2, b3, b4, hs1, b5⟩
          | some s =>
            simp only at hs2
            subst hs2
            refine ⟨rfl, ?_, hd1, ?_, ?_, ?_, hs1, ?_⟩
            · change Dict.get? (Dict.set p2 "alarm_type" _) _ = _
              rw [Dict.get?_set_ne _ _ (by decide)]; exact b1
            · intro h
              change Dict.get? (Dict.set p2 "alarm_type" _) _ = _
              rw [Dict.get?_set_ne _ _ (by decide)]; exact b2 h
            · intro v h
              obtain ⟨level, s', c1, c2, c3⟩ := b3 v h
              refine ⟨level, s', c1, c2, ?_⟩
              change Dict.get? (Dict.set p2 "alarm_type" _) _ = _
              rw [Dict.get?_set_ne _ _ (by decide)]; exact c3
            · exact Dict.get?_set_self _ _ _
            · intro k hk
              rcases (Dict.mem_keys_set _ _ _ _).mp hk with hk | hk
              · simp [hk]
              · exact b5 k hk
  · intro h1 h2 h3
    obtain ⟨p1, e1⟩ := (hD []).2 h1
    obtain ⟨p2, e2⟩ := (hV p1).2 h2
    obtain ⟨p3, e3⟩ := (hS p2).2 h3
    refine ⟨⟨"", "play_alarm", p3⟩, ?_⟩
    unfold play
    rw [e1]
    change (playVolume p1 volume >>= _) = _
    rw [e2]
    change (playSound d.sounds p2 sound >>= _) = _
    rw [e3]
    rfl

/-! ## Cameras -/

theorem checkOptional_ok (x : Option Num) (lo hi : Rat) : checkOptional x lo hi = .ok () ↔ ∀ y, x = some y → y = .nan ∨ InRange y lo hi := by
  cases x with
  | none => exact ⟨fun _ y hy => (by cases hy), fun _ => rfl⟩
  | some y =>
    exact (refuseOutside_ok_iff y lo hi _).trans ⟨fun h z hz => (by cases hz; exact h), fun h => h y rfl⟩

theorem checkGiven_ok (sounds : List String) (sound : Option String) :
    checkGiven sounds (given sound) = .ok () ↔ ∀ s, sound = some s → s ≠ "" → s ∈ sounds := by
  cases sound with
  | none => exact ⟨fun _ s hs => (by cases hs), fun _ => rfl⟩
  | some s =>
    by_cases h : s = ""
    · subst h
      exact ⟨fun _ s hs hne => (by cases hs; exact absurd rfl hne), fun _ => rfl⟩
    · have hg : given (some s) = some s := if_neg h
      rw [hg]
      exact (checkSound_ok sounds s).trans ⟨fun h' s' hs _ => (by cases hs; exact h'), fun h' => h' s rfl h⟩

/-- The three parts of the configuration that is sent. -/
def camParts (floatText : Num → String) (duration volume : Option Num) (sound : Option String) : List (String × PyV) :=
  (match given sound with | some s => [("siren_type", .str s)] | none => []) ++
    (match duration with | some d => [("duration", .num d)] | none => []) ++
    (match volume with | some v => [("volume", .str (text floatText v))] | none => [])

theorem camConfig_eq (ft : Num → String) (sounds : List String) (duration volume : Option Num) (sound : Option String) :
    camConfig ft sounds duration volume sound =
      (checkGiven sounds (given sound) >>= fun _ => checkOptional duration 0 6000 >>= fun _ => checkOptional volume 0 10 >>= fun _ =>
        pure (camParts ft duration volume sound)) := rfl

theorem camConfig_spec (ft : Num → String) (sounds : List String) (duration volume : Option Num) (sound : Option String) :
    (((∀ s, sound = some s → s ≠ "" → s ∈ sounds) ∧ (∀ y, duration = some y → y = .nan ∨ InRange y 0 6000) ∧
      (∀ y, volume = some y → y = .nan ∨ InRange y 0 10)) → camConfig ft sounds duration volume sound = .ok (camParts ft duration volume sound)) ∧
    (¬ ((∀ s, sound = some s → s ≠ "" → s ∈ sounds) ∧ (∀ y, duration = some y → y = .nan ∨ InRange y 0 6000) ∧
      (∀ y, volume = some y → y = .nan ∨ InRange y 0 10)) → ∃ e, camConfig ft sounds duration volume sound = .error e) := by
  rw [← checkGiven_ok, ← checkOptional_ok, ← checkOptional_ok, camConfig_eq]
  cases h1 : checkGiven sounds (given sound) with
  | error e => exact ⟨fun h => (by cases h.1), fun _ => ⟨e, rfl⟩⟩
  | ok u1 =>
    cases h2 : checkOptional duration 0 6000 with
    | error e => exact ⟨fun h => (by cases h.2.1), fun _ => ⟨e, rfl⟩⟩
    | ok u2 =>
      cases h3 : checkOptional volume 0 10 with
      | error e => exact ⟨fun h => (by cases h.2.2), fun _ => ⟨e, rfl⟩⟩
      | ok u3 => exact ⟨fun _ => rfl, fun h => absurd ⟨rfl, rfl, rfl⟩ h⟩

theorem camParts_get (ft : Num → String) (duration volume : Option Num) (sound : Option String) :
    Dict.get? (camParts ft duration volume sound) "siren_type" = (given sound).map .str ∧
    Dict.get? (camParts ft duration volume sound) "duration" = duration.map .num ∧
    Dict.get? (camParts ft duration volume sound) "volume" = volume.map (fun v => .str (text ft v)) ∧
    (∀ k ∈ Dict.keys (camParts ft duration volume sound), k ∈ ["siren_type", "duration", "volume"]) ∧
    (camParts ft duration volume sound = [] ↔ given sound = none ∧ duration = none ∧ volume = none) := by
  unfold camParts
  cases given sound <;> cases duration <;> cases volume <;>
    exact ⟨rfl, rfl, rfl, by simp [Dict.keys], by simp⟩

/-- C39, cameras: what is set is exactly what was given, within 0 to 6000 seconds, levels 0 to 10 and the listed sounds; anything
else is refused, except NaN. -/
theorem C39_camera (ft : Num → String) (sounds : List String) (duration volume : Option Num) (sound : Option String) :
    (∀ c, camSet ft sounds duration volume sound = .ok c → ∃ config, c = ⟨"", "setSirenConfig", [("siren", .obj config)]⟩ ∧
      Dict.get? config "duration" = duration.map .num ∧ Dict.get? config "volume" = volume.map (fun v => .str (text ft v)) ∧
      (∀ s, s ≠ "" → (Dict.get? config "siren_type" = some (.str s) ↔ sound = some s)) ∧
      (∀ k ∈ Dict.keys config, k ∈ ["siren_type", "duration", "volume"])) ∧
    ((∃ c, camSet ft sounds duration volume sound = .ok c) ↔
      (∀ s, sound = some s → s ≠ "" → s ∈ sounds) ∧ (∀ y, duration = some y → y = .nan ∨ InRange y 0 6000) ∧
      (∀ y, volume = some y → y = .nan ∨ InRange y 0 10)) := by
  obtain ⟨p1, p2, p3, p4, -⟩ := camParts_get ft duration volume sound
  obtain ⟨s1, s2⟩ := camConfig_spec ft sounds duration volume sound
  have hiff : (∃ c, camSet ft sounds duration volume sound = .ok c) ↔
      (∀ s, sound = some s → s ≠ "" → s ∈ sounds) ∧ (∀ y, duration = some y → y = .nan ∨ InRange y 0 6000) ∧
      (∀ y, volume = some y → y = .nan ∨ InRange y 0 10) := by
    constructor
    · rintro ⟨c, hc⟩
      apply Classical.byContradiction
      intro hn
      obtain ⟨e, he⟩ := s2 hn
      unfold camSet at hc
      rw [he] at hc
      cases hc
    · intro h
      refine ⟨sirenConfig (camParts ft duration volume sound), ?_⟩
      unfold camSet
      rw [s1 h]
      rfl
  refine ⟨?_, hiff⟩
  intro c hc
  have := s1 (hiff.mp ⟨c, hc⟩)
  unfold camSet at hc
  rw [this] at hc
  cases hc
  refine ⟨_, rfl, p2, p3, ?_, p4⟩
  intro s hs
  rw [p1]
  cases sound with
  | none => simp [given]
  | some s' =>
    by_cases h : s' = ""
    · subst h
      have hg : given (some "") = none := by decide
      rw [hg]
      simp [hs.symm]
    · have hg : given (some s') = some s' := if_neg h
      rw [hg]
      simp

/-- C39, cameras: a level that was set is the level that is then read. -/
theorem C39_camera_volume (ft : Num → String) (sounds : List String) (level : Nat) (hl : level ≤ 10) :
    ∃ config, camSet ft sounds none (some (.int level)) none = .ok (sirenConfig config) ∧ camReadVolume config = .ok level := by
  refine ⟨camParts ft none (some (.int level)) none, ?_, ?_⟩
  · unfold camSet
    rw [(camConfig_spec ft sounds none (some (.int level)) none).1 ⟨fun s h => (by cases h), fun y h => (by cases h), fun y h => ?_⟩]
    · rfl
    · cases h
      refine Or.inr ⟨(level : Int), rfl, ?_, ?_⟩
      · exact_mod_cast Int.natCast_nonneg level
      · exact_mod_cast hl
  · have ht : text ft (.int level) = toString level := rfl
    have hlist : (toString level : String).toList = Nat.toDigits 10 level := by
      rw [Nat.toString_eq_ofList_toDigits]; simp
    have hd : ((toString level : String).toList.all Char.isDigit && !(toString level : String).toList.isEmpty) = true := by
      rw [hlist]
      simp only [Bool.and_eq_true, List.all_eq_true]
      refine ⟨fun c hc => Nat.isDigit_of_mem_toDigits (by decide) (by decide) hc, ?_⟩
      have := Nat.toDigits_ne_nil (n := level) (b := 10)
      cases hx : Nat.toDigits 10 level with
      | nil => exact absurd hx this
      | cons a b => rfl
    unfold camReadVolume
    rw [(camParts_get ft none (some (.int level)) none).2.2.1]
    simp only [Option.map_some, ht]
    rw [if_pos hd, hlist, Nat.ofDigitChars_ten_toDigits]

/-- C39, cameras: playing first sets what was given, if anything, and then turns the siren on. -/
theorem C39_camera_play (ft : Num → String) (sounds : List String) (duration volume : Option Num) (sound : Option String) (cs : List Command)
    (h : camPlay ft sounds duration volume sound = .ok cs) :
    (duration = none → volume = none → sound = none → cs = [sirenStatus "on"]) ∧
    ((duration ≠ none ∨ volume ≠ none) → ∃ c, camSet ft sounds duration volume sound = .ok c ∧ cs = [c, sirenStatus "on"]) := by
  unfold camPlay at h
  cases hc : camConfig ft sounds duration volume sound with
  | error e => rw [hc] at h; cases h
  | ok config =>
    rw [hc] at h
    have hcfg : config = camParts ft duration volume sound := by
      obtain ⟨s1, s2⟩ := camConfig_spec ft sounds duration volume sound
      apply Classical.byContradiction
      intro hne
      by_cases hok : ((∀ s, sound = some s → s ≠ "" → s ∈ sounds) ∧ (∀ y, duration = some y → y = .nan ∨ InRange y 0 6000) ∧
        (∀ y, volume = some y → y = .nan ∨ InRange y 0 10))
      · rw [s1 hok] at hc; cases hc; exact hne rfl
      · obtain ⟨e, he⟩ := s2 hok; rw [he] at hc; cases hc
    have hempty := (camParts_get ft duration volume sound).2.2.2.2
    cases h
    constructor
    · intro h1 h2 h3
      have : config = [] := by rw [hcfg]; exact hempty.mpr ⟨by rw [h3]; rfl, h1, h2⟩
      rw [this]
      rfl
    · intro hne
      refine ⟨sirenConfig config, ?_, ?_⟩
      · unfold camSet; rw [hc]; rfl
      · have : config.isEmpty = false := by
          cases hx : config with
          | nil =>
            rw [hx] at hcfg
            obtain ⟨-, e1, e2⟩ := hempty.mp hcfg.symm
            rcases hne with h | h
            · exact absurd e1 h
            · exact absurd e2 h
          | cons a b => rfl
        rw [this]
        rfl

/-! ### Examples -/

example : HasLevel (.str "normal") 2 := Or.inr (Or.inr ⟨"normal", rfl, rfl⟩)
example : ∀ level, ¬ HasLevel (.str "loud") level := by
  rintro level (⟨h, -⟩ | ⟨b, h, -⟩ | ⟨s, h, hl⟩)
  · cases h
  · cases h
  · cases h
    have : "loud" ∈ levelNames := List.mem_of_getElem? hl
    revert this
    decide
example : InRange (.int 600) 1 600 := ⟨600, rfl, by decide, by decide⟩
example : (play ⟨[], ["a"]⟩ (some (.int 5)) (some (.num (.int 3))) (some "a")).isOk = true := by decide +kernel
example : (camPlay (fun _ => "") ["a"] (some (.int 5)) (some (.int 3)) none).isOk = true := by decide +kernel

end Kasa.Alarm
