import Verif.Spec.Settings
import Verif.Lemmas.Num
/-!
# C74: settings of newer devices
-/

namespace Kasa.Settings
open SettingsSpec Setters Thermostat

theorem refuse_int (t lo hi : Int) (e : Exc) :
    refuseOutside (.int t) lo hi e = if lo ≤ t ∧ t ≤ hi then .ok () else .error e := by
  unfold refuseOutside Num.lt Num.gt
  by_cases h1 : t < lo
  · have : (t : Rat) < (lo : Rat) := by exact_mod_cast h1
    rw [if_neg (by omega)]
    simp only [bind, Except.bind, this, decide_true, if_true]
  · have n1 : ¬ (t : Rat) < (lo : Rat) := fun h => h1 (by exact_mod_cast h)
    by_cases h2 : hi < t
    · have : (hi : Rat) < (t : Rat) := by exact_mod_cast h2
      rw [if_neg (by omega)]
      simp only [bind, Except.bind, n1, this, decide_true, decide_false, if_true, Bool.false_eq_true, if_false]
    · have n2 : ¬ (hi : Rat) < (t : Rat) := fun h => h2 (by exact_mod_cast h)
      rw [if_pos (by omega)]
      simp only [bind, Except.bind, n1, n2, decide_false, Bool.false_eq_true, if_false]
      rfl

theorem check_int (max : Int) (hm : 0 ≤ max) (t : Int) :
    checkThreshold max (some (.int t)) = if 0 ≤ t ∧ t ≤ max then .ok () else .error (.other "ValueError") := by
  unfold checkThreshold
  by_cases h0 : t = 0
  · subst h0
    rw [if_pos ⟨by omega, hm⟩]
    rfl
  · have : (Num.int t).truthy = true := by simp [Num.truthy, h0]
    simp only [this, if_true]
    exact refuse_int t 0 max _

/-- What a device stores after a dict was sent. -/
theorem sent_fields (dev read params names : List (String × PyV)) (hw : Dict.WF params)
    (h1 : ∀ k v, Dict.get? names k = some v → Dict.get? params k = some v)
    (h2 : ∀ k, Dict.get? names k = none → Dict.get? params k = none ∨ Dict.get? params k = Dict.get? read k) :
    (∀ k v, Dict.get? names k = some v → Dict.get? (Dict.update dev params) k = some v) ∧
    (∀ k, Dict.get? names k = none → Dict.get? (Dict.update dev params) k = Dict.get? dev k ∨
      Dict.get? (Dict.update dev params) k = Dict.get? read k ∧ (Dict.get? read k).isSome) := by
  constructor
  · intro k v hv
    rw [Dict.get?_update hw, h1 k v hv]
    rfl
  · intro k hk
    rw [Dict.get?_update hw]
    cases hp : Dict.get? params k with
    | none => exact .inl rfl
    | some v =>
      right
      rcases h2 k hk with h | h
      · rw [hp] at h; cases h
      · rw [← h, hp]; exact ⟨rfl, rfl⟩

theorem get_one (k : String) (v : PyV) (x : String) : Dict.get? [(k, v)] x = if k = x then some v else none := rfl

theorem get_two (k k' : String) (v v' : PyV) (x : String) :
    Dict.get? [(k, v), (k', v')] x = if k = x then some v else if k' = x then some v' else none := rfl

theorem ok_bind {α β : Type} {x : Except Exc α} {f : α → Except Exc β} {b : β} (h : (x >>= f) = .ok b) :
    ∃ a, x = .ok a ∧ f a = .ok b := by
  cases x with
  | error e => cases h
  | ok a => exact ⟨a, rfl, h⟩

theorem item_ok {d : Info} {k : String} {v : PyV} (h : item d k = .ok v) : Dict.get? d k = some v := by
  unfold item at h
  cases hg : Dict.get? d k with
  | none => rw [hg] at h; cases h
  | some w => rw [hg] at h; cases h; rfl

/-- The statement of `C74_fields` for the dict `g`. -/
abbrev Changes (device device' read : Data) (g : Group) (names : List (String × PyV)) : Prop :=
  (∀ k v, Dict.get? names k = some v → look device' g k = some v) ∧
  (∀ k, Dict.get? names k = none → look device' g k = look device g k ∨
    resent g = true ∧ look device' g k = look read g k ∧ (look read g k).isSome) ∧
  ∀ g', g' ≠ g → ∀ k, look device' g' k = look device g' k

/-- **C74, one setting.** Whatever the device stores and whatever the library has read, a setting that is sent makes the
device store it; every other field stays as it was, or, where all settings of a dict are sent together, becomes what the
library has read last; the other dicts do not change. -/
theorem C74_fields (device read : Data) (o : Op) (c : Command) (hp : Proper read) (h : send read o = .ok c) :
    Changes device (obey device c) read (named read o).1 (named read o).2 := by
  have split3 : ∀ {device' : Data} {g : Group} {names : List (String × PyV)}, resent g = true →
      ((∀ k v, Dict.get? names k = some v → look device' g k = some v) ∧
        (∀ k, Dict.get? names k = none → look device' g k = look device g k ∨
          look device' g k = look read g k ∧ (look read g k).isSome)) →
      (∀ g', g' ≠ g → ∀ k, look device' g' k = look device g' k) → Changes device device' read g names :=
    fun hg h1 h2 => ⟨h1.1, fun k hk => (h1.2 k hk).imp id fun h => ⟨hg, h⟩, h2⟩
  have only : ∀ {device' : Data} {g : Group} {names : List (String × PyV)},
      (∀ k v, Dict.get? names k = some v → look device' g k = some v) →
      (∀ k, Dict.get? names k = none → look device' g k = look device g k) →
      (∀ g', g' ≠ g → ∀ k, look device' g' k = look device g' k) → Changes device device' read g names :=
    fun h1 h2 h3 => ⟨h1, fun k hk => .inl (h2 k hk), h3⟩
  have alone : ∀ (dev names : List (String × PyV)), Dict.WF names →
      (∀ k v, Dict.get? names k = some v → Dict.get? (Dict.update dev names) k = some v) ∧
      (∀ k, Dict.get? names k = none → Dict.get? (Dict.update dev names) k = Dict.get? dev k) := by
    intro dev names hw
    refine ⟨fun k v hv => ?_, fun k hk => ?_⟩
    · rw [Dict.get?_update hw, hv]; rfl
    · rw [Dict.get?_update hw, hk]; rfl
  have rest : ∀ (device' : Data) (g : Group), (∀ g', g' ≠ g → look device' g' = look device g') →
      ∀ g', g' ≠ g → ∀ k, look device' g' k = look device g' k := fun _ _ h g' hg k => by rw [h g' hg]
  cases o with
  | autoOff on =>
    obtain ⟨v, hv, hc⟩ := ok_bind h
    cases hc
    have hg := item_ok hv
    refine split3 rfl (sent_fields device.autoOff read.autoOff [("enable", flag on), ("delay_min", v)] _ (by simp [Dict.WF, Dict.keys]) ?_ ?_) (rest _ _ ?_)
    · intro k v' hk; simp only [named, get_one] at hk; rw [get_two]; split at hk
      · next e => rw [if_pos e]; exact hk
      · cases hk
    · intro k hk; simp only [named, get_one] at hk; rw [get_two]; split at hk
      · cases hk
      · next e =>
        rw [if_neg e]
        by_cases e2 : "delay_min" = k
        · rw [if_pos e2]; right; rw [← e2, hg]
        · rw [if_neg e2]; left; rfl
    · intro g' hg'; cases g' <;> first | rfl | exact absurd rfl hg'
  | delay n =>
    obtain ⟨v, hv, hc⟩ := ok_bind h
    cases hc
    have hg := item_ok hv
    refine split3 rfl (sent_fields device.autoOff read.autoOff [("delay_min", int n), ("enable", v)] _ (by simp [Dict.WF, Dict.keys]) ?_ ?_) (rest _ _ ?_)
    · intro k v' hk; simp only [named, get_one] at hk; rw [get_two]; split at hk
      · next e => rw [if_pos e]; exact hk
      · cases hk
    · intro k hk; simp only [named, get_one] at hk; rw [get_two]; split at hk
      · cases hk
      · next e =>
        rw [if_neg e]
        by_cases e2 : "enable" = k
        · rw [if_pos e2]; right; rw [← e2, hg]
        · rw [if_neg e2]; left; rfl
    · intro g' hg'; cases g' <;> first | rfl | exact absurd rfl hg'
  | led on =>
    cases h
    refine split3 rfl (sent_fields device.led read.led (Dict.set read.led "led_rule" (.str (if on then "always" else "never"))) _ (Dict.WF_set hp.led _ _) ?_ ?_) (rest _ _ ?_)
    · intro k v' hk; simp only [named, get_one] at hk; rw [Dict.get?_set]; split at hk
      · next e => rw [if_pos e]; exact hk
      · cases hk
    · intro k hk; simp only [named, get_one] at hk; rw [Dict.get?_set]; split at hk
      · cases hk
      · next e => rw [if_neg e]; right; rfl
    · intro g' hg'; cases g' <;> first | rfl | exact absurd rfl hg'
  | autoUpdate on =>
    cases h
    refine split3 rfl (sent_fields device.autoUpdate read.autoUpdate (Dict.set read.autoUpdate "enable" (flag on)) _ (Dict.WF_set hp.autoUpdate _ _) ?_ ?_) (rest _ _ ?_)
    · intro k v' hk; simp only [named, get_one] at hk; rw [Dict.get?_set]; split at hk
      · next e => rw [if_pos e]; exact hk
      · cases hk
    · intro k hk; simp only [named, get_one] at hk; rw [Dict.get?_set]; split at hk
      · cases hk
      · next e => rw [if_neg e]; right; rfl
    · intro g' hg'; cases g' <;> first | rfl | exact absurd rfl hg'
  | protect on t =>
    obtain ⟨u, hu, hc⟩ := ok_bind h
    cases hc
    have two : ∀ n : Num, ∀ names, names = [("enabled", flag on), ("protection_power", PyV.num n)] →
        Changes device (obey device (call "set_protection_power" (protectionParams read.power on (some n)))) read .power names := by
      intro n names hn
      subst hn
      refine split3 rfl (sent_fields device.power.stored read.power.stored (Dict.set (Dict.set read.power.stored "enabled" (flag on)) "protection_power" (.num n)) _ (Dict.WF_set (Dict.WF_set hp.power _ _) _ _) ?_ ?_) (rest _ _ ?_)
      · intro k v' hk; rw [get_two] at hk; rw [Dict.get?_set, Dict.get?_set]
        by_cases e : "enabled" = k
        · subst e; rw [if_neg (by decide), if_pos rfl]; simpa using hk
        · rw [if_neg e] at hk; rw [if_neg e]; split at hk
          · next e2 => rw [if_pos e2]; exact hk
          · cases hk
      · intro k hk; rw [get_two] at hk; rw [Dict.get?_set, Dict.get?_set]
        split at hk
        · cases hk
        · next e =>
          split at hk
          · cases hk
          · next e2 => rw [if_neg e2, if_neg e]; right; rfl
      · intro g' hg'; cases g' <;> first | rfl | exact absurd rfl hg'
    have one : ∀ names, names = [("enabled", flag on)] →
        Changes device (obey device (call "set_protection_power" (protectionParams read.power on none))) read .power names := by
      intro names hn
      subst hn
      refine split3 rfl (sent_fields device.power.stored read.power.stored (Dict.set read.power.stored "enabled" (flag on)) _ (Dict.WF_set hp.power _ _) ?_ ?_) (rest _ _ ?_)
      · intro k v' hk; rw [get_one] at hk; rw [Dict.get?_set]; split at hk
        · next e => rw [if_pos e]; exact hk
        · cases hk
      · intro k hk; rw [get_one] at hk; rw [Dict.get?_set]; split at hk
        · cases hk
        · next e => rw [if_neg e]; right; rfl
      · intro g' hg'; cases g' <;> first | rfl | exact absurd rfl hg'
    cases t with
    | some t => exact two (.int t) _ rfl
    | none =>
      cases hb : on && read.power.unset with
      | true =>
        have e : defaultThreshold read.power on (Option.map Num.int none) = some (.int (read.power.max.tdiv 2)) := by
          simp only [defaultThreshold, Option.map_none, hb, if_true]
        rw [e]
        exact two _ _ (by simp only [named, hb, if_true]; rfl)
      | false =>
        have e : defaultThreshold read.power on (Option.map Num.int none) = none := by
          simp only [defaultThreshold, Option.map_none, hb, Bool.false_eq_true, if_false]
        rw [e]
        exact one _ (by simp only [named, hb, Bool.false_eq_true, if_false])
  | threshold t =>
    obtain ⟨u, hu, hc⟩ := ok_bind h
    cases hc
    refine split3 rfl (sent_fields device.power.stored read.power.stored (Dict.set read.power.stored "protection_power" (int t)) _ (Dict.WF_set hp.power _ _) ?_ ?_) (rest _ _ ?_)
    · intro k v' hk; simp only [named, get_one] at hk; rw [Dict.get?_set]; split at hk
      · next e => rw [if_pos e]; exact hk
      · cases hk
    · intro k hk; simp only [named, get_one] at hk; rw [Dict.get?_set]; split at hk
      · cases hk
      · next e => rw [if_neg e]; right; rfl
    · intro g' hg'; cases g' <;> first | rfl | exact absurd rfl hg'
  | childProtection on =>
    cases h
    refine ⟨?_, ?_, rest _ _ ?_⟩
    · intro k v' hk
      simp only [named, get_one] at hk
      show Dict.get? (Dict.set device.info "child_protection" _) k = _
      rw [Dict.get?_set]; split at hk
      · next e => rw [if_pos e]; exact hk
      · cases hk
    · intro k hk
      simp only [named, get_one] at hk
      left
      show Dict.get? (Dict.set device.info "child_protection" _) k = _
      rw [Dict.get?_set]; split at hk
      · cases hk
      · next e => rw [if_neg e]; rfl
    · intro g' hg'; cases g' <;> first | rfl | exact absurd rfl hg'
  | childLock on =>
    cases h
    have ha := alone device.childLock [("child_lock_status", flag on)] (by simp [Dict.WF, Dict.keys])
    refine only ha.1 ha.2 (rest _ _ ?_)
    intro g' hg'; cases g' <;> first | rfl | exact absurd rfl hg'
  | unit u =>
    cases h
    have ha := alone device.info [("temp_unit", .str u)] (by simp [Dict.WF, Dict.keys])
    refine only ha.1 ha.2 (rest _ _ ?_)
    intro g' hg'; cases g' <;> first | rfl | exact absurd rfl hg'
  | sleep on =>
    cases h
    have ha := alone device.info [("fan_sleep_mode_on", flag on)] (by simp [Dict.WF, Dict.keys])
    refine only ha.1 ha.2 (rest _ _ ?_)
    intro g' hg'; cases g' <;> first | rfl | exact absurd rfl hg'
  | fan n =>
    obtain ⟨u, hu, hc⟩ := ok_bind h
    have hn : (Num.int n).eq 0 = decide (n = 0) := by
      unfold Num.eq Num.value
      by_cases h0 : n = 0
      · subst h0; rfl
      · have : ¬ (n : Rat) = 0 := fun h => h0 (by exact_mod_cast h)
        simp [h0, this]
    rw [hn] at hc
    by_cases h0 : n = 0
    · simp only [h0, decide_true, if_true] at hc
      cases hc
      subst h0
      have ha := alone device.info [("device_on", flag false)] (by simp [Dict.WF, Dict.keys])
      refine only ha.1 ha.2 (rest _ _ ?_)
      intro g' hg'; cases g' <;> first | rfl | exact absurd rfl hg'
    · simp only [h0, decide_false, Bool.false_eq_true, if_false] at hc
      cases hc
      have ha := alone device.info [("device_on", flag true), ("fan_speed_level", int n)] (by simp [Dict.WF, Dict.keys])
      refine only (fun k v hk => ha.1 k v ?_) (fun k hk => ha.2 k ?_) (rest _ _ ?_)
      · simp only [named, if_neg h0] at hk; exact hk
      · simp only [named, if_neg h0] at hk; exact hk
      · intro g' hg'; cases g' <;> first | rfl | exact absurd rfl hg'

/-! ## Over time -/

theorem obey_proper {d : Data} (h : Proper d) (c : Command) : Proper (obey d c) := by
  obtain ⟨h1, h2, h3⟩ := h
  unfold obey
  split <;> first
    | exact ⟨h1, h2, h3⟩
    | exact ⟨Dict.WF_update h1, h2, h3⟩
    | exact ⟨h1, Dict.WF_update h2, h3⟩
    | exact ⟨h1, h2, Dict.WF_update h3⟩
    | (split <;> exact ⟨h1, h2, h3⟩)

theorem obey_max (d : Data) (c : Command) : (obey d c).power.max = d.power.max := by
  unfold obey
  split <;> first | rfl | (split <;> rfl)

/-- What the library has read of the settings not set since. -/
structure Known (max : Int) (dirty : List Group) (read : Data) (w : Wishes) : Prop where
  proper : Proper read
  autoOff : Group.autoOff ∉ dirty → look read .autoOff "enable" = some (flag w.autoOff) ∧
    look read .autoOff "delay_min" = some (int w.delay)
  power : Group.power ∉ dirty → look read .power "enabled" = some (flag w.protect) ∧
    (look read .power "protection_power" = some (int w.threshold) ∨
      (look read .power "protection_power" = none ∧ w.threshold = 0))
  max : read.power.max = max

theorem num_eq_zero (n : Int) : (Num.int n).eq 0 = decide (n = 0) := by
  unfold Num.eq Num.value
  by_cases h0 : n = 0
  · subst h0; rfl
  · have : ¬ (n : Rat) = 0 := fun h => h0 (by exact_mod_cast h)
    simp [h0, this]

theorem unset_iff {read : Data} {w : Wishes}
    (h : look read .power "protection_power" = some (int w.threshold) ∨
      (look read .power "protection_power" = none ∧ w.threshold = 0)) :
    read.power.unset = decide (w.threshold = 0) := by
  unfold Protection.unset
  rcases h with h | ⟨h, h0⟩
  · have h : Dict.get? read.power.stored "protection_power" = some (.num (.int w.threshold)) := h
    rw [h]
    exact num_eq_zero _
  · have h : Dict.get? read.power.stored "protection_power" = none := h
    rw [h, h0]
    rfl

/-- A value the setter accepts. -/
def InRange (max : Int) : Op → Prop
  | .protect _ (some t) => 0 ≤ t ∧ t ≤ max
  | .threshold t => 0 ≤ t ∧ t ≤ max
  | .fan n => 0 ≤ n ∧ n ≤ 4
  | _ => True

/-- A refused setting changes nothing; what is sent is what was wished. -/
theorem send_cases {max : Int} (hm : 0 ≤ max) {dirty : List Group} {read : Data} {w : Wishes} (hk : Known max dirty read w)
    (o : Op) (hf : ∀ g, groupOf o = some g → g ∉ dirty) :
    (∃ e, send read o = .error e ∧ w.apply max o = w) ∨
      (∃ c, send read o = .ok c ∧ InRange max o) := by
  cases o with
  | autoOff on =>
    have := (hk.autoOff (hf _ rfl)).2
    have hi : item read.autoOff "delay_min" = .ok (int w.delay) := by
      unfold item
      have : Dict.get? read.autoOff "delay_min" = some (int w.delay) := this
      rw [this]
    exact .inr ⟨_, by simp only [send, setAutoOff, hi]; rfl, trivial⟩
  | delay n =>
    have := (hk.autoOff (hf _ rfl)).1
    have hi : item read.autoOff "enable" = .ok (flag w.autoOff) := by
      unfold item
      have : Dict.get? read.autoOff "enable" = some (flag w.autoOff) := this
      rw [this]
    exact .inr ⟨_, by simp only [send, setDelay, hi]; rfl, trivial⟩
  | protect on t =>
    cases t with
    | none =>
      right
      refine ⟨call "set_protection_power" (protectionParams read.power on (defaultThreshold read.power on none)), ?_, trivial⟩
      simp only [send, setProtection, Option.map_none]
      have : checkThreshold read.power.max (defaultThreshold read.power on none) = .ok () := by
        unfold defaultThreshold
        simp only []
        cases hb : on && read.power.unset with
        | false => rfl
        | true =>
          rw [hk.max]
          simp only [if_true]
          rw [check_int max hm, if_pos]
          rw [Int.tdiv_eq_ediv_of_nonneg hm]
          omega
      rw [this]
      rfl
    | some t =>
      have hc := check_int max hm t
      by_cases h : 0 ≤ t ∧ t ≤ max
      · right
        rw [if_pos h] at hc
        refine ⟨call "set_protection_power" (protectionParams read.power on (some (.int t))), ?_, h⟩
        simp only [send, setProtection, Option.map_some, defaultThreshold, hk.max, hc]
        rfl
      · left
        rw [if_neg h] at hc
        refine ⟨.other "ValueError", ?_, ?_⟩
        · simp only [send, setProtection, Option.map_some, defaultThreshold, hk.max, hc]
          rfl
        · simp only [Wishes.apply, if_neg h]
  | threshold t =>
    have hc := refuse_int t 0 max (.other "ValueError")
    by_cases h : 0 ≤ t ∧ t ≤ max
    · right
      rw [if_pos h] at hc
      refine ⟨call "set_protection_power" (Dict.set read.power.stored "protection_power" (.num (.int t))), ?_, h⟩
      have hc : refuseOutside (.int t) 0 (max : Rat) (.other "ValueError") = .ok () := hc
      simp only [send, setThreshold, hk.max, hc]
      rfl
    · left
      rw [if_neg h] at hc
      have hc : refuseOutside (.int t) 0 (max : Rat) (.other "ValueError") = .error (.other "ValueError") := hc
      refine ⟨.other "ValueError", ?_, ?_⟩
      · simp only [send, setThreshold, hk.max, hc]
        rfl
      · simp only [Wishes.apply, if_neg h]
  | fan n =>
    have hc := refuse_int n 0 4 (.other "ValueError")
    by_cases h : 0 ≤ n ∧ n ≤ 4
    · right
      rw [if_pos h] at hc
      have hc : refuseOutside (.int n) 0 4 (.other "ValueError") = .ok () := hc
      by_cases h0 : n = 0
      · refine ⟨call "set_device_info" [("device_on", .num (.bool false))], ?_, h⟩
        simp only [send, setFan, hc, num_eq_zero, h0, decide_true, if_true]
        rfl
      · refine ⟨call "set_device_info" [("device_on", .num (.bool true)), ("fan_speed_level", .num (.int n))], ?_, h⟩
        simp only [send, setFan, hc, num_eq_zero, h0, decide_false, Bool.false_eq_true, if_false]
        rfl
    · left
      rw [if_neg h] at hc
      have hc : refuseOutside (.int n) 0 4 (.other "ValueError") = .error (.other "ValueError") := hc
      refine ⟨.other "ValueError", ?_, ?_⟩
      · simp only [send, setFan, hc]
        rfl
      · simp only [Wishes.apply, if_neg h, if_neg (by omega : ¬ n = 0)]
  | led on => exact .inr ⟨_, rfl, trivial⟩
  | autoUpdate on => exact .inr ⟨_, rfl, trivial⟩
  | childProtection on => exact .inr ⟨_, rfl, trivial⟩
  | childLock on => exact .inr ⟨_, rfl, trivial⟩
  | unit u => exact .inr ⟨_, rfl, trivial⟩
  | sleep on => exact .inr ⟨_, rfl, trivial⟩

/-- A setting that is sent does what was wished. -/
theorem sent_holds {max : Int} (hm : 0 ≤ max) {dirty : List Group} {device read : Data} {w : Wishes} (hd : Holds max device w)
    (hk : Known max dirty read w) (o : Op) (hf : ∀ g, groupOf o = some g → g ∉ dirty) {c : Command}
    (hc : send read o = .ok c)
    (hr : InRange max o) : Holds max (obey device c) (w.apply max o) := by
  obtain ⟨f1, f2, f3⟩ := C74_fields device read o c hk.proper hc
  have hmax : (obey device c).power.max = max := by rw [obey_max]; exact hd.max
  -- a field of another dict, or of a dict of which only what is named is sent
  have keep : ∀ {g : Group} {k : String} {x : Option PyV}, look device g k = x → g ≠ (named read o).1 →
      look (obey device c) g k = x := fun h hg => by rw [f3 _ hg]; exact h
  have alone : ∀ {k : String} {x : Option PyV}, look device (named read o).1 k = x → resent (named read o).1 = false →
      Dict.get? (named read o).2 k = none → look (obey device c) (named read o).1 k = x := by
    intro k x h hg hn
    rcases f2 k hn with h' | ⟨h', _⟩
    · rw [h']; exact h
    · rw [hg] at h'; cases h'
  have both : ∀ {k : String} {x : PyV}, look device (named read o).1 k = some x → look read (named read o).1 k = some x →
      Dict.get? (named read o).2 k = none → look (obey device c) (named read o).1 k = some x := by
    intro k x h h' hn
    rcases f2 k hn with h1 | ⟨_, h1, _⟩
    · rw [h1]; exact h
    · rw [h1]; exact h'
  have thr : ∀ {x : Int}, (look device .power "protection_power" = some (int x) ∨
      (look device .power "protection_power" = none ∧ x = 0)) → (look read .power "protection_power" = some (int x) ∨
      (look read .power "protection_power" = none ∧ x = 0)) → (named read o).1 = .power →
      Dict.get? (named read o).2 "protection_power" = none →
      (look (obey device c) .power "protection_power" = some (int x) ∨
      (look (obey device c) .power "protection_power" = none ∧ x = 0)) := by
    intro x h h' hg hn
    rw [hg] at f2
    rcases f2 _ hn with h1 | ⟨_, h1, _⟩
    · rw [h1]; exact h
    · rw [h1]; exact h'
  have keepThr : (named read o).1 ≠ .power → (look (obey device c) .power "protection_power" = some (int w.threshold) ∨
      (look (obey device c) .power "protection_power" = none ∧ w.threshold = 0)) := by
    intro hg
    rw [f3 _ (fun h => hg h.symm)]
    exact hd.threshold
  cases o with
  | autoOff on =>
    have hr := hk.autoOff (hf _ rfl)
    exact ⟨f1 _ _ rfl, both hd.delay hr.2 rfl, keep hd.led (by simp [named]), keep hd.autoUpdate (by simp [named]),
      keep hd.protect (by simp [named]), keepThr (by simp [named]), hmax, keep hd.childProtection (by simp [named]),
      keep hd.childLock (by simp [named]), keep hd.unit (by simp [named]), keep hd.on (by simp [named]),
      keep hd.speed (by simp [named]), keep hd.sleep (by simp [named])⟩
  | delay n =>
    have hr := hk.autoOff (hf _ rfl)
    exact ⟨both hd.autoOff hr.1 rfl, f1 _ _ rfl, keep hd.led (by simp [named]), keep hd.autoUpdate (by simp [named]),
      keep hd.protect (by simp [named]), keepThr (by simp [named]), hmax, keep hd.childProtection (by simp [named]),
      keep hd.childLock (by simp [named]), keep hd.unit (by simp [named]), keep hd.on (by simp [named]),
      keep hd.speed (by simp [named]), keep hd.sleep (by simp [named])⟩
  | led on =>
    exact ⟨keep hd.autoOff (by simp [named]), keep hd.delay (by simp [named]), f1 _ _ rfl, keep hd.autoUpdate (by simp [named]),
      keep hd.protect (by simp [named]), keepThr (by simp [named]), hmax, keep hd.childProtection (by simp [named]),
      keep hd.childLock (by simp [named]), keep hd.unit (by simp [named]), keep hd.on (by simp [named]),
      keep hd.speed (by simp [named]), keep hd.sleep (by simp [named])⟩
  | autoUpdate on =>
    exact ⟨keep hd.autoOff (by simp [named]), keep hd.delay (by simp [named]), keep hd.led (by simp [named]), f1 _ _ rfl,
      keep hd.protect (by simp [named]), keepThr (by simp [named]), hmax, keep hd.childProtection (by simp [named]),
      keep hd.childLock (by simp [named]), keep hd.unit (by simp [named]), keep hd.on (by simp [named]),
      keep hd.speed (by simp [named]), keep hd.sleep (by simp [named])⟩
  | childProtection on =>
    exact ⟨keep hd.autoOff (by simp [named]), keep hd.delay (by simp [named]), keep hd.led (by simp [named]),
      keep hd.autoUpdate (by simp [named]), keep hd.protect (by simp [named]), keepThr (by simp [named]), hmax, f1 _ _ rfl,
      keep hd.childLock (by simp [named]), alone hd.unit rfl rfl, alone hd.on rfl rfl, alone hd.speed rfl rfl,
      alone hd.sleep rfl rfl⟩
  | childLock on =>
    exact ⟨keep hd.autoOff (by simp [named]), keep hd.delay (by simp [named]), keep hd.led (by simp [named]),
      keep hd.autoUpdate (by simp [named]), keep hd.protect (by simp [named]), keepThr (by simp [named]), hmax,
      keep hd.childProtection (by simp [named]), f1 _ _ rfl, keep hd.unit (by simp [named]), keep hd.on (by simp [named]),
      keep hd.speed (by simp [named]), keep hd.sleep (by simp [named])⟩
  | unit u =>
    exact ⟨keep hd.autoOff (by simp [named]), keep hd.delay (by simp [named]), keep hd.led (by simp [named]),
      keep hd.autoUpdate (by simp [named]), keep hd.protect (by simp [named]), keepThr (by simp [named]), hmax,
      alone hd.childProtection rfl rfl, keep hd.childLock (by simp [named]), f1 _ _ rfl, alone hd.on rfl rfl,
      alone hd.speed rfl rfl, alone hd.sleep rfl rfl⟩
  | sleep on =>
    exact ⟨keep hd.autoOff (by simp [named]), keep hd.delay (by simp [named]), keep hd.led (by simp [named]),
      keep hd.autoUpdate (by simp [named]), keep hd.protect (by simp [named]), keepThr (by simp [named]), hmax,
      alone hd.childProtection rfl rfl, keep hd.childLock (by simp [named]), alone hd.unit rfl rfl, alone hd.on rfl rfl,
      alone hd.speed rfl rfl, f1 _ _ rfl⟩
  | fan n =>
    have hr : 0 ≤ n ∧ n ≤ 4 := hr
    by_cases h0 : n = 0
    · subst h0
      exact ⟨keep hd.autoOff (by simp [named]), keep hd.delay (by simp [named]), keep hd.led (by simp [named]),
        keep hd.autoUpdate (by simp [named]), keep hd.protect (by simp [named]), keepThr (by simp [named]), hmax,
        alone hd.childProtection rfl rfl, keep hd.childLock (by simp [named]), alone hd.unit rfl rfl, f1 _ _ rfl,
        alone hd.speed rfl rfl, alone hd.sleep rfl rfl⟩
    · have hn : (named read (.fan n)).2 = [("device_on", flag true), ("fan_speed_level", int n)] := by simp only [named, if_neg h0]
      have ha : w.apply max (.fan n) = { w with on := true, speed := n } := by
        simp only [Wishes.apply, if_neg h0, if_pos hr]
      rw [ha]
      exact ⟨keep hd.autoOff (by simp [named]), keep hd.delay (by simp [named]), keep hd.led (by simp [named]),
        keep hd.autoUpdate (by simp [named]), keep hd.protect (by simp [named]), keepThr (by simp [named]), hmax,
        alone hd.childProtection rfl (by rw [hn]; rfl), keep hd.childLock (by simp [named]), alone hd.unit rfl (by rw [hn]; rfl),
        f1 _ _ (by rw [hn]; rfl), f1 _ _ (by rw [hn]; rfl), alone hd.sleep rfl (by rw [hn]; rfl)⟩
  | threshold t =>
    have hp := hk.power (hf _ rfl)
    have hr : 0 ≤ t ∧ t ≤ max := hr
    have ha : w.apply max (.threshold t) = { w with threshold := t } := by simp only [Wishes.apply, if_pos hr]
    rw [ha]
    exact ⟨keep hd.autoOff (by simp [named]), keep hd.delay (by simp [named]), keep hd.led (by simp [named]),
      keep hd.autoUpdate (by simp [named]), both hd.protect hp.1 rfl, .inl (f1 _ _ rfl), hmax,
      keep hd.childProtection (by simp [named]), keep hd.childLock (by simp [named]), keep hd.unit (by simp [named]),
      keep hd.on (by simp [named]), keep hd.speed (by simp [named]), keep hd.sleep (by simp [named])⟩
  | protect on t =>
    have hp := hk.power (hf _ rfl)
    cases t with
    | some t =>
      have hr : 0 ≤ t ∧ t ≤ max := hr
      have ha : w.apply max (.protect on (some t)) = { w with protect := on, threshold := t } := by
        simp only [Wishes.apply, if_pos hr]
      rw [ha]
      exact ⟨keep hd.autoOff (by simp [named]), keep hd.delay (by simp [named]), keep hd.led (by simp [named]),
        keep hd.autoUpdate (by simp [named]), f1 _ _ rfl, .inl (f1 _ _ rfl), hmax,
        keep hd.childProtection (by simp [named]), keep hd.childLock (by simp [named]), keep hd.unit (by simp [named]),
        keep hd.on (by simp [named]), keep hd.speed (by simp [named]), keep hd.sleep (by simp [named])⟩
    | none =>
      have hu := unset_iff hp.2
      refine ⟨keep hd.autoOff (by simp [named]), keep hd.delay (by simp [named]), keep hd.led (by simp [named]),
        keep hd.autoUpdate (by simp [named]), f1 _ _ rfl, ?_, hmax,
        keep hd.childProtection (by simp [named]), keep hd.childLock (by simp [named]), keep hd.unit (by simp [named]),
        keep hd.on (by simp [named]), keep hd.speed (by simp [named]), keep hd.sleep (by simp [named])⟩
      simp only [Wishes.apply]
      by_cases hb : on = true ∧ w.threshold = 0
      · rw [if_pos hb]
        left
        have hn : (named read (.protect on none)).2 = [("enabled", flag on), ("protection_power", int (read.power.max.tdiv 2))] := by
          simp [named, hu, hb.1, hb.2]
        have := f1 "protection_power" (int (read.power.max.tdiv 2)) (by rw [hn]; rfl)
        rw [hk.max, Int.tdiv_eq_ediv_of_nonneg hm] at this
        exact this
      · rw [if_neg hb]
        have hn : (named read (.protect on none)).2 = [("enabled", flag on)] := by
          simp only [named, hu]
          rw [if_neg]
          simpa using hb
        exact thr hd.threshold hp.2 rfl (by rw [hn]; rfl)

theorem apply_other (max : Int) (w : Wishes) (o : Op) :
    (groupOf o ≠ some .autoOff → (w.apply max o).autoOff = w.autoOff ∧ (w.apply max o).delay = w.delay) ∧
    (groupOf o ≠ some .power → (w.apply max o).protect = w.protect ∧ (w.apply max o).threshold = w.threshold) := by
  cases o with
  | protect on t =>
    refine ⟨fun _ => ?_, fun h => absurd rfl h⟩
    cases t with
    | none => exact ⟨rfl, rfl⟩
    | some t => simp only [Wishes.apply]; split <;> exact ⟨rfl, rfl⟩
  | threshold t =>
    refine ⟨fun _ => ?_, fun h => absurd rfl h⟩
    simp only [Wishes.apply]; split <;> exact ⟨rfl, rfl⟩
  | fan n =>
    constructor <;>
    · intro _
      simp only [Wishes.apply]
      split
      · exact ⟨rfl, rfl⟩
      · split <;> exact ⟨rfl, rfl⟩
  | autoOff on => exact ⟨fun h => absurd rfl h, fun _ => ⟨rfl, rfl⟩⟩
  | delay n => exact ⟨fun h => absurd rfl h, fun _ => ⟨rfl, rfl⟩⟩
  | _ => exact ⟨fun _ => ⟨rfl, rfl⟩, fun _ => ⟨rfl, rfl⟩⟩

theorem history (max : Int) (hm : 0 ≤ max) (es : List (Option Op)) (dirty : List Group) (W : World) (w : Wishes)
    (hp : Proper W.device) (hd : Holds max W.device w) (hk : Known max dirty W.read w) (hf : Fresh dirty es) :
    Holds max (es.foldl play W).device (es.foldl (wish max) w) := by
  induction es generalizing dirty W w with
  | nil => exact hd
  | cons e es ih =>
    simp only [List.foldl_cons]
    cases e with
    | none =>
      refine ih [] (play W none) w hp hd ?_ hf
      exact ⟨hp, fun _ => ⟨hd.autoOff, hd.delay⟩, fun _ => ⟨hd.protect, hd.threshold⟩, hd.max⟩
    | some o =>
      have hff : ∀ g, groupOf o = some g → g ∉ dirty := by
        intro g hg
        simp only [Fresh, hg] at hf
        exact hf.1
      have hrest : ∃ dirty', Fresh dirty' es ∧ (∀ g, g ∉ dirty' → g ∉ dirty ∧ groupOf o ≠ some g) := by
        simp only [Fresh] at hf
        cases hg : groupOf o with
        | none =>
          rw [hg] at hf
          exact ⟨dirty, hf, fun g h => ⟨h, by simp⟩⟩
        | some g =>
          rw [hg] at hf
          refine ⟨g :: dirty, hf.2, fun g' h => ⟨fun h' => h (.tail _ h'), ?_⟩⟩
          intro h'
          cases h'
          exact h (.head _)
      obtain ⟨dirty', hf', hsub⟩ := hrest
      have known : Known max dirty' W.read (w.apply max o) := by
        have ho := apply_other max w o
        refine ⟨hk.proper, ?_, ?_, hk.max⟩
        · intro h
          obtain ⟨h1, h2⟩ := hsub _ h
          rw [(ho.1 h2).1, (ho.1 h2).2]
          exact hk.autoOff h1
        · intro h
          obtain ⟨h1, h2⟩ := hsub _ h
          rw [(ho.2 h2).1, (ho.2 h2).2]
          exact hk.power h1
      rcases send_cases hm hk o hff with ⟨e, he, hw⟩ | ⟨c, hc, hr⟩
      · have hs : play W (some o) = W := by simp only [play, step, he]
        rw [hs]
        refine ih dirty' W _ hp ?_ known hf'
        rw [show wish max w (some o) = w.apply max o from rfl, hw]
        exact hd
      · have hs : play W (some o) = { W with device := obey W.device c } := by simp only [play, step, hc]
        rw [hs]
        exact ih dirty' _ _ (obey_proper hp c) (sent_holds hm hd hk o hff hc hr) known hf'

/-- **C74, over time.** Whatever settings are made in whatever order, with updates anywhere in between, the device ends up
with the wishes, if of the settings that are sent together none is made between another and the next update.  Missing: that
restriction cannot be dropped, see `C74_undone`. -/
theorem C74_history_partial (max : Int) (hm : 0 ≤ max) (d : Data) (w : Wishes) (hp : Proper d) (hd : Holds max d w)
    (es : List (Option Op)) (hf : Fresh [] es) : Holds max (es.foldl play ⟨d, d⟩).device (es.foldl (wish max) w) :=
  history max hm es [] ⟨d, d⟩ w hp hd ⟨hp, fun _ => ⟨hd.autoOff, hd.delay⟩, fun _ => ⟨hd.protect, hd.threshold⟩, hd.max⟩ hf

/-- **C74, what is shown.** After an update the modules show the wishes. -/
theorem C74_shown (max : Int) (d : Data) (w : Wishes) (h : Holds max d w) :
    autoOff d = .ok (flag w.autoOff) ∧ delay d = .ok (int w.delay) ∧ ledMode d = .ok (.str w.ledRule) ∧
    led d = .ok (decide (w.ledRule ≠ "never")) ∧ autoUpdate d = flag w.autoUpdate ∧ protection d = .ok (flag w.protect) ∧
    threshold d = int w.threshold ∧ thresholdOrZero d = .ok (int (if w.protect then w.threshold else 0)) ∧
    childProtection d = .ok (flag w.childProtection) ∧ childLock d = .ok (flag w.childLock) ∧
    temperatureUnit d = .ok (.str w.unit) ∧ fanSpeed d = .ok (int (if w.on then w.speed else 0)) ∧
    sleepMode d = .ok (flag w.sleep) := by
  have hitem : ∀ {kvs : Info} {k : String} {v : PyV}, Dict.get? kvs k = some v → item kvs k = .ok v := by
    intro kvs k v h; simp only [item, h]
  have ht : threshold d = int w.threshold := by
    unfold threshold
    rcases h.threshold with h | ⟨h, h0⟩
    · have h : Dict.get? d.power.stored "protection_power" = _ := h
      rw [h]
    · have h : Dict.get? d.power.stored "protection_power" = _ := h
      rw [h, h0]
      rfl
  have hpr : protection d = .ok (flag w.protect) := hitem h.protect
  refine ⟨hitem h.autoOff, hitem h.delay, hitem h.led, ?_, ?_, hpr, ht, ?_, hitem h.childProtection,
    hitem h.childLock, hitem h.unit, ?_, hitem h.sleep⟩
  · have : item d.led "led_rule" = .ok (.str w.ledRule) := hitem h.led
    simp only [led, this, bind, Except.bind]
    split
    · next e =>
      have : w.ledRule = "never" := by injection e
      simp [this, pure, Except.pure]
    · next e =>
      have : w.ledRule ≠ "never" := by
        intro h'
        exact e (by rw [h'])
      simp [this, pure, Except.pure]
  · have : Dict.get? d.autoUpdate "enable" = _ := h.autoUpdate
    simp only [autoUpdate, this]
  · simp only [thresholdOrZero, hpr, bind, Except.bind, ht]
    cases w.protect <;> rfl
  · have h1 : item d.info "device_on" = .ok (flag w.on) := hitem h.on
    have h2 : item d.info "fan_speed_level" = .ok (int w.speed) := hitem h.speed
    simp only [fanSpeed, h1, h2, bind, Except.bind]
    cases w.on <;> rfl

/-- **C74, refuted in part.** A delay that was set is lost when auto off is switched before the next update. -/
theorem C74_undone (W : World) (old new : Int) (on : Bool)
    (h1 : look W.read .autoOff "delay_min" = some (int old)) (h2 : (look W.read .autoOff "enable").isSome) :
    look (([some (.delay new), some (.autoOff on)] : List (Option Op)).foldl play W).device .autoOff "delay_min" = some (int old) := by
  obtain ⟨e, he⟩ := Option.isSome_iff_exists.1 h2
  have hi1 : item W.read.autoOff "delay_min" = .ok (int old) := by
    have : Dict.get? W.read.autoOff "delay_min" = _ := h1
    simp only [item, this]
  have hi2 : item W.read.autoOff "enable" = .ok e := by
    have : Dict.get? W.read.autoOff "enable" = _ := he
    simp only [item, this]
  have s1 : send W.read (.delay new) = .ok (call "set_auto_off_config" [("delay_min", int new), ("enable", e)]) := by
    simp only [send, setDelay, hi2]; rfl
  have s2 : send W.read (.autoOff on) = .ok (call "set_auto_off_config" [("enable", flag on), ("delay_min", int old)]) := by
    simp only [send, setAutoOff, hi1]; rfl
  simp only [List.foldl_cons, List.foldl_nil, play, step, s1, s2]
  show Dict.get? (Dict.update _ [("enable", flag on), ("delay_min", int old)]) "delay_min" = _
  rw [Dict.get?_update (by simp [Dict.WF, Dict.keys])]
  rfl

/-- **C74, refuted in part.** What someone else changed since the last update in the dict of the LED (here the start of the
night mode) is undone by switching the LED. -/
theorem C74_other_undone (W : World) (k : String) (old new : PyV) (on : Bool) (hp : Proper W.read) (hk : k ≠ "led_rule")
    (h : look W.read .led k = some old) :
    look ((([.other (call "set_led_info" [(k, new)]), .op (.led on)] : List Ev)).foldl step W).device .led k = some old := by
  show Dict.get? (Dict.update _ (Dict.set W.read.led "led_rule" _)) k = _
  rw [Dict.get?_update (Dict.WF_set hp.led _ _), Dict.get?_set_ne _ _ (Ne.symm hk)]
  have : Dict.get? W.read.led k = some old := h
  rw [this]
  rfl

/-- A plug with a fan the theorems apply to. -/
def exampleData : Data where
  info := [("device_on", flag true), ("fan_speed_level", int 2), ("fan_sleep_mode_on", flag false), ("temp_unit", .str "celsius"),
    ("child_protection", flag false)]
  autoOff := [("enable", flag false), ("delay_min", int 120)]
  led := [("led_rule", .str "always"), ("start_time", int 1200)]
  autoUpdate := [("enable", flag true), ("time", int 180)]
  power := { stored := [("enabled", flag false)], max := 3680 }
  childLock := [("child_lock_status", flag false)]

example : Proper exampleData ∧ Holds 3680 exampleData ⟨false, 120, "always", true, false, 0, false, false, "celsius", true, 2, false⟩ :=
  ⟨⟨by simp [exampleData, Dict.WF, Dict.keys], by simp [exampleData, Dict.WF, Dict.keys], by simp [exampleData, Dict.WF, Dict.keys]⟩,
    rfl, rfl, rfl, rfl, rfl, .inr ⟨rfl, rfl⟩, rfl, rfl, rfl, rfl, rfl, rfl, rfl⟩

example : Fresh [] [some (.delay 5), some (.led false), none, some (.autoOff true), some (.protect true none)] := by
  simp [Fresh, groupOf]

end Kasa.Settings
