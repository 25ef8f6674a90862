import Verif.Spec.Sensors
/-!
# C97: sensors show what the device reported
-/

namespace Kasa.Sensors
open SensorsSpec Ops

theorem item_says {d : Dev} {key : String} {v : Json} (h : Says d key v) : item (.obj d.info) key = .ok v := by
  simp only [item, show Dict.get? d.info key = some v from h]

theorem item_silent {d : Dev} {key : String} (h : Silent d key) : item (.obj d.info) key = .error (.other "KeyError") := by
  simp only [item, show Dict.get? d.info key = none from h]

/-- **C97, plain readings.** These features show what the device reported last, whatever it is; if it did not report it, reading raises. -/
theorem C97_reported (id key : String) (h : (id, key) ∈ plain) (d : Dev) :
    (∀ v, Says d key v → shown d id = .ok (.json v)) ∧ (Silent d key → shown d id = .error (.other "KeyError")) := by
  have hs : shown d id = reported d key := by
    simp only [plain, List.mem_cons, List.not_mem_nil, or_false, Prod.mk.injEq] at h
    rcases h with ⟨rfl, rfl⟩ | ⟨rfl, rfl⟩ | ⟨rfl, rfl⟩ | ⟨rfl, rfl⟩ | ⟨rfl, rfl⟩ | ⟨rfl, rfl⟩ | ⟨rfl, rfl⟩ | ⟨rfl, rfl⟩ <;> rfl
  rw [hs]
  unfold reported
  exact ⟨fun v hv => by rw [item_says hv]; rfl, fun hv => by rw [item_silent hv]; rfl⟩

theorem shown_low (d : Dev) : shown d "battery_low" = batteryLow d := rfl

/-- **C97, low battery, in part.** Either name under which devices report a low battery is read.  (What is missing: if a device reports both, and
the first as `null`, the second is not read.) -/
theorem C97_battery_low_partial (d : Dev) (v : Json) (hv : v ≠ .null) :
    (Says d "at_low_battery" v → shown d "battery_low" = .ok (.json v)) ∧
    (Silent d "at_low_battery" → Says d "is_low" v → shown d "battery_low" = .ok (.json v)) ∧
    (Silent d "at_low_battery" → Silent d "is_low" → shown d "battery_low" = .error .kasa) := by
  unfold Says Silent
  rw [shown_low]
  unfold batteryLow
  refine ⟨fun h => ?_, fun h h' => ?_, fun h h' => ?_⟩
  · rw [h]
    cases v <;> first | rfl | exact absurd rfl hv
  · rw [h, h']
    cases v <;> first | rfl | exact absurd rfl hv
  · rw [h, h']
    rfl

/-- **C97, low battery, the counterexample.** The device reports a low battery under the second name, and reading raises. -/
theorem C97_battery_low_counterexample (d : Dev) (h : Says d "at_low_battery" .null) : shown d "battery_low" = .error .kasa := by
  unfold Says at h
  rw [shown_low]
  unfold batteryLow
  rw [h]
  rfl

/-- **C97, overheating.** A status other than normal is overheating; without a status the device says so itself. -/
theorem C97_overheated (d : Dev) :
    (∀ s, Says d "overheat_status" (.str s) → shown d "overheated" = .ok (.json (.bool (decide (s ≠ "normal"))))) ∧
    (∀ v, Silent d "overheat_status" ∨ Says d "overheat_status" .null → Says d "overheated" v → shown d "overheated" = .ok (.json v)) := by
  have hs : shown d "overheated" = overheated d := rfl
  rw [hs]
  unfold overheated
  refine ⟨fun s h => ?_, fun v h hv => ?_⟩
  · rw [show Dict.get? d.info "overheat_status" = _ from h]
    simp
  · have : (Dict.get? d.info "overheat_status").getD .null = .null := by
      rcases h with h | h
      · rw [show Dict.get? d.info "overheat_status" = _ from h]; rfl
      · rw [show Dict.get? d.info "overheat_status" = _ from h]; rfl
    rw [this]
    unfold reported
    simp only
    rw [item_says hv]
    rfl

/-- **C97, warnings.** A warning is shown exactly if the device reports a code other than zero. -/
theorem C97_warnings (d : Dev) :
    (∀ n, Says d "current_temp_exception" (.num n) → shown d "temperature_warning" = .ok (.json (.bool (decide (n ≠ 0))))) ∧
    (Silent d "current_temp_exception" → shown d "temperature_warning" = .ok (.json (.bool false))) ∧
    (∀ n, Says d "current_humidity_exception" (.num n) → shown d "humidity_warning" = .ok (.json (.bool (decide (n ≠ 0))))) ∧
    (Silent d "current_humidity_exception" → shown d "humidity_warning" = .error (.other "KeyError")) := by
  have h1 : shown d "temperature_warning" = temperatureWarning d := rfl
  have h2 : shown d "humidity_warning" = humidityWarning d := rfl
  rw [h1, h2]
  unfold temperatureWarning humidityWarning
  refine ⟨fun n h => ?_, fun h => ?_, fun n h => ?_, fun h => ?_⟩
  · rw [show Dict.get? d.info _ = _ from h]; rfl
  · rw [show Dict.get? d.info _ = _ from h]; rfl
  · rw [item_says h]; rfl
  · rw [item_silent h]; rfl

/-- **C97, water.** The three states are shown; any other raises. An alert that never was has no time; any other has the time the device reports,
in the zone of the device. -/
theorem C97_water (d : Dev) :
    (∀ s, Says d "water_leak_status" (.str s) → s = "normal" ∨ s = "water_leak" ∨ s = "water_dry" → shown d "water_leak" = .ok (.json (.str s))) ∧
    (∀ s, Says d "water_leak_status" (.str s) → s ≠ "normal" → s ≠ "water_leak" → s ≠ "water_dry" →
      shown d "water_leak" = .error (.other "ValueError")) ∧
    (Silent d "trigger_timestamp" → shown d "water_alert_timestamp" = .ok (.json .null)) ∧
    (∀ s clock, Says d "trigger_timestamp" (.num s) → d.own = some (.ok clock) →
      shown d "water_alert_timestamp" = .ok (.moment (s * 1000000) clock.zone)) := by
  have h1 : shown d "water_leak" = waterLeak d := rfl
  have h2 : shown d "water_alert_timestamp" = alertTimestamp d := rfl
  rw [h1, h2]
  unfold waterLeak alertTimestamp
  refine ⟨fun s h hs => ?_, fun s h a b c => ?_, fun h => ?_, fun s clock h hc => ?_⟩
  · rw [item_says h]
    have : Json.str s ∈ leakStates := by
      simp only [leakStates, List.mem_cons, List.not_mem_nil, or_false, Json.str.injEq]
      exact hs
    simp [bind, Except.bind, this, pure, Except.pure]
  · rw [item_says h]
    have : Json.str s ∉ leakStates := by
      simp only [leakStates, List.mem_cons, List.not_mem_nil, or_false, Json.str.injEq]
      simp [a, b, c]
    simp [bind, Except.bind, this]
  · rw [show Dict.get? d.info _ = _ from h]
  · rw [show Dict.get? d.info _ = _ from h, hc]
    rfl

/-- **C97, the clock.** The time of a device is that of its own clock, else that of its parent, else that of the host, in whole seconds. -/
theorem C97_time (d : Dev) :
    (∀ c, d.own = some c → time d = c) ∧ (∀ c, d.own = none → d.parent = some c → time d = c) ∧
    (d.own = none → d.parent = none → ∃ t, time d = .ok ⟨t * 1000000, d.host.zone⟩ ∧ t * 1000000 ≤ d.host.time ∧ d.host.time < (t + 1) * 1000000) := by
  refine ⟨fun c h => ?_, fun c h h' => ?_, fun h h' => ?_⟩
  · unfold time; rw [h]
  · unfold time; rw [h, h']
  · refine ⟨d.host.time / 1000000, ?_, ?_, ?_⟩
    · unfold time; rw [h, h']
    · omega
    · omega

/-- **C97, auto off.** While the timer runs, the moment shown is the reported number of seconds after the time of the device; else there is
none. -/
theorem C97_auto_off (d : Dev) :
    (∀ s now, Says d "auto_off_status" (.str "on") → Says d "auto_off_remain_time" (.num s) → time d = .ok now →
      shown d "auto_off_at" = .ok (.moment (now.time + s * 1000000) now.zone)) ∧
    (∀ v, Says d "auto_off_status" v → v ≠ .str "on" → shown d "auto_off_at" = .ok (.json .null)) := by
  have h1 : shown d "auto_off_at" = autoOffAt d := rfl
  rw [h1]
  unfold autoOffAt timerActive
  refine ⟨fun s now h h' hn => ?_, fun v h hv => ?_⟩
  · rw [item_says h, item_says h', hn]
    rfl
  · rw [item_says h]
    simp [bind, Except.bind, pure, Except.pure, hv]

/-- **C97, overload.** -/
theorem C97_overloaded (d : Dev) (s : String) (h : Says d "power_protection_status" (.str s)) :
    shown d "overloaded" = .ok (.json (.bool (decide (s = "overloaded")))) := by
  have h1 : shown d "overloaded" = overloaded d := rfl
  rw [h1]
  unfold overloaded
  rw [item_says h]
  simp [bind, Except.bind, pure, Except.pure]

/-- **C97, the cloud.** A device is connected exactly if it reports status zero; it is not if it answered with an error, or has no such module. -/
theorem C97_cloud (d : Dev) :
    (d.cloud = none → cloudConnected d = .ok false) ∧
    (∀ c, d.cloud = some (.error (.device c)) → cloudConnected d = .ok false ∧ shown d "cloud_connection" = .ok (.json (.bool false))) ∧
    (∀ kvs n, d.cloud = some (.ok (.obj kvs)) → Dict.get? kvs "status" = some (.num n) →
      cloudConnected d = .ok (decide (n = 0)) ∧ shown d "cloud_connection" = .ok (.json (.bool (decide (n = 0))))) ∧
    (d.cloud = some (.error .kasa) → cloudConnected d = .error .kasa) := by
  have h1 : shown d "cloud_connection" = (match d.cloud with
    | none => .error (.other "KeyError")
    | some c => (connected c).map fun b => .json (.bool b)) := rfl
  rw [h1]
  unfold cloudConnected
  refine ⟨fun h => ?_, fun c h => ?_, fun kvs n h hn => ?_, fun h => ?_⟩
  · rw [h]
  · rw [h]
    exact ⟨rfl, rfl⟩
  · rw [h]
    have hc : connected (.ok (.obj kvs)) = .ok (decide (n = 0)) := by
      unfold connected
      have ht : (Json.obj kvs).truthy = true := by
        cases kvs with
        | nil => cases hn
        | cons a l => rfl
      simp only [ht, if_true]
      unfold item
      simp only [hn]
      by_cases h0 : n = 0 <;> simp [bind, Except.bind, pure, Except.pure, nonzero, h0]
    refine ⟨hc, ?_⟩
    simp only [hc]
    rfl
  · rw [h]
    rfl

theorem given_iff (i : Info) (key : String) : given i key = true ↔ ∃ v, Dict.get? i key = some v ∧ v ≠ .null := by
  unfold given
  cases h : Dict.get? i key with
  | none => simp
  | some v => simp

theorem has_iff (i : Info) (key : String) : Dict.has i key = true ↔ ∃ v, Dict.get? i key = some v := by
  unfold Dict.has
  cases Dict.get? i key <;> simp

/-- **C97, offered readings.** These features, once offered, can be read as long as the device keeps reporting what it reported at first. -/
theorem C97_offered (first : Info) (d : Dev) (hk : Keeps first d.info) (id : String)
    (hid : id = "is_open" ∨ id = "overheated" ∨ id = "overloaded" ∨ id = "battery_level" ∨ id = "temperature_warning") (ho : offers first id = true) :
    ∃ v, shown d id = .ok v := by
  have says : ∀ key, Dict.has first key = true → ∃ v, Says d key v := by
    intro key h
    obtain ⟨v, hv⟩ := (has_iff _ _).1 h
    obtain ⟨w, hw, -⟩ := hk key v hv
    exact ⟨w, hw⟩
  have gives : ∀ key, given first key = true → ∃ v, Says d key v ∧ v ≠ .null := by
    intro key h
    obtain ⟨v, hv, hn⟩ := (given_iff _ _).1 h
    obtain ⟨w, hw, hww⟩ := hk key v hv
    exact ⟨w, hw, hww hn⟩
  rcases hid with rfl | rfl | rfl | rfl | rfl
  · obtain ⟨v, hv, -⟩ := gives "open" ho
    exact ⟨_, (C97_reported "is_open" "open" (by decide) d).1 v hv⟩
  · have h1 : shown d "overheated" = overheated d := rfl
    rw [h1]
    unfold overheated
    have ho : (given first "overheated" || given first "overheat_status") = true := ho
    cases hx : (Dict.get? d.info "overheat_status").getD .null with
    | null =>
      have : given first "overheat_status" = false := by
        cases hg : given first "overheat_status" with
        | false => rfl
        | true =>
          obtain ⟨v, hv, hn⟩ := gives _ hg
          rw [show Dict.get? d.info "overheat_status" = some v from hv] at hx
          exact absurd hx hn
      rw [this, Bool.or_false] at ho
      obtain ⟨v, hv, -⟩ := gives _ ho
      unfold reported
      simp only
      rw [item_says hv]
      exact ⟨_, rfl⟩
    | _ => exact ⟨_, rfl⟩
  · obtain ⟨v, hv⟩ := says "power_protection_status" ho
    have h1 : shown d "overloaded" = overloaded d := rfl
    rw [h1]
    unfold overloaded
    rw [item_says hv]
    exact ⟨_, rfl⟩
  · obtain ⟨v, hv⟩ := says "battery_percentage" ho
    exact ⟨_, (C97_reported "battery_level" "battery_percentage" (by decide) d).1 v hv⟩
  · exact ⟨_, rfl⟩

/-! ## The hypotheses can be met -/

/-- A water leak sensor behind a hub. -/
def sampleSensor : Dev :=
  ⟨[("at_low_battery", .bool false), ("battery_percentage", .num 100), ("in_alarm", .bool false), ("water_leak_status", .str "water_dry"),
    ("trigger_timestamp", .num 1728480717), ("overheat_status", .str "cooldown"), ("auto_off_status", .str "on"), ("auto_off_remain_time", .num 60)],
   some (.ok ⟨1728480800000000, "Europe/Berlin"⟩), none, ⟨0, "UTC"⟩, none⟩

example : shown sampleSensor "battery_level" = .ok (.json (.num 100)) :=
  (C97_reported "battery_level" "battery_percentage" (by decide) sampleSensor).1 _ (by decide)
example : shown sampleSensor "battery_low" = .ok (.json (.bool false)) := (C97_battery_low_partial sampleSensor _ (by decide)).1 (by decide)
example : shown sampleSensor "overheated" = .ok (.json (.bool true)) := (C97_overheated sampleSensor).1 "cooldown" (by decide)
example : shown sampleSensor "water_leak" = .ok (.json (.str "water_dry")) := (C97_water sampleSensor).1 "water_dry" (by decide) (by simp)
example : shown sampleSensor "water_alert_timestamp" = .ok (.moment 1728480717000000 "Europe/Berlin") :=
  (C97_water sampleSensor).2.2.2 1728480717 _ (by decide) rfl
example : shown sampleSensor "auto_off_at" = .ok (.moment 1728480860000000 "Europe/Berlin") :=
  (C97_auto_off sampleSensor).1 60 _ (by decide) (by decide) rfl
example : shown { sampleSensor with info := [("at_low_battery", .null), ("is_low", .bool true)] } "battery_low" = .error .kasa :=
  C97_battery_low_counterexample _ (by decide)
example := C97_offered sampleSensor.info sampleSensor (fun key v h => ⟨v, h, id⟩) "overheated" (by simp) (by decide)
example : time { sampleSensor with own := none, host := ⟨12345678, "UTC"⟩ } = .ok ⟨12000000, "UTC"⟩ := by decide
example : cloudConnected { sampleSensor with cloud := some (.ok (.obj [("status", .num 0)])) } = .ok true :=
  ((C97_cloud _).2.2.1 _ 0 rfl (by decide)).1

end Kasa.Sensors
