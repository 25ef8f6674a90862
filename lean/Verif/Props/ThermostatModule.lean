import Verif.Spec.ThermostatModule
import Verif.Props.Thermostat
/-!
# C69: the thermostat module
-/

namespace Kasa.Thermostat

open ThermostatSpec Setters

theorem send_method (info : Info) (op : Op) (c : Command) (h : send info op = .ok c) : c.method = "set_device_info" := by
  cases op with
  | state on => cases h; rfl
  | frost on => cases h; rfl
  | offset x =>
    have h : setOffset x = .ok c := h
    unfold setOffset at h
    cases hr : refuseOutside x (-10) 10 (.other "ValueError") with
    | error e => rw [hr] at h; cases h
    | ok u => rw [hr] at h; cases h; rfl
  | target x =>
    have h : setTargetTemperature info x = .ok c := h
    unfold setTargetTemperature at h
    cases h1 : limit info "min_control_temp" with
    | error e => rw [h1] at h; cases h
    | ok lo =>
      cases h2 : limit info "max_control_temp" with
      | error e => rw [h1, h2] at h; cases h
      | ok hi =>
        rw [h1, h2] at h
        have h : setTarget lo hi (Dict.has info "frost_protection_on") x = .ok c := h
        unfold setTarget at h
        cases hr : refuseOutside x lo hi (.other "ValueError") with
        | error e => rw [hr] at h; cases h
        | ok u => rw [hr] at h; cases h; rfl

theorem step_part (p : Parts) (info : Info) (op : Op) : stepRoom p info (.part op) = step info op := by
  show (match send info op with | .ok c => obeyRoom info c | .error _ => info) = step info op
  unfold step
  cases h : send info op with
  | error e => rfl
  | ok c =>
    have hm := send_method info op c h
    show obeyRoom info c = obey info c
    unfold obeyRoom obey
    rw [if_pos (.inl hm), if_pos hm]

theorem stepRoom_eq (p : Parts) (hp : p.thermostat = true) (info : Info) (op : RoomOp) :
    stepRoom p info op = match op with
      | .part op => step info op
      | .state on => step info (.state on)
      | .target x => step info (.target x)
      | .unit u => Dict.set info "temp_unit" (.str u) := by
  obtain ⟨c, s⟩ := p
  cases c <;> cases s <;> simp [Parts.thermostat] at hp
  cases op with
  | part op => exact step_part _ info op
  | state on => exact step_part ⟨true, true⟩ info (.state on)
  | target x => exact step_part ⟨true, true⟩ info (.target x)
  | unit u => rfl

/-- C69, the thermostat module: after any history of operations on it and on its parts, the next update shows by it the state, the mode,
the target temperature and the unit that were set last, and the measured temperature stays as it was reported. -/
theorem C69_thermostat (p : Parts) (hp : p.thermostat = true) (lo hi : Int) (info : Info) (r : Room) (ops : List RoomOp)
    (hs : ∀ op ∈ ops, op.sane) (h : Holds lo hi info r.valve) (hu : Dict.get? info "temp_unit" = some (.str r.unit)) (l : List String)
    (hl : Dict.get? info "trv_states" = some (.arr (l.map .str))) :
    let r' := ops.foldl (Room.apply lo hi) r
    let info' := ops.foldl (stepRoom p) info
    thState p info' = .ok r'.valve.on ∧ thMode p info' = .ok (if r'.valve.on then doing l else .off) ∧
      thTarget p info' = .ok (.num r'.valve.target) ∧ thUnit p info' = .ok (.str r'.unit) ∧
      thTemperature p info' = thTemperature p info := by
  have key : ∀ (ops : List RoomOp) (info : Info) (r : Room), (∀ op ∈ ops, op.sane) → Holds lo hi info r.valve →
      Dict.get? info "temp_unit" = some (.str r.unit) →
      Holds lo hi (ops.foldl (stepRoom p) info) (ops.foldl (Room.apply lo hi) r).valve ∧
        Dict.get? (ops.foldl (stepRoom p) info) "temp_unit" = some (.str (ops.foldl (Room.apply lo hi) r).unit) ∧
        Dict.get? (ops.foldl (stepRoom p) info) "trv_states" = Dict.get? info "trv_states" ∧
        Dict.get? (ops.foldl (stepRoom p) info) "current_temp" = Dict.get? info "current_temp" := by
    intro ops
    induction ops with
    | nil => exact fun _ _ _ h hu => ⟨h, hu, rfl, rfl⟩
    | cons op ops ih =>
      intro info r hs h hu
      have hs' := fun o ho => hs o (List.mem_cons_of_mem _ ho)
      have hop := hs op (List.mem_cons_self ..)
      have part : ∀ o : Op, o.sane → stepRoom p info op = step info o → Room.apply lo hi r op = { r with valve := r.valve.apply lo hi o } →
          Holds lo hi (stepRoom p info op) (Room.apply lo hi r op).valve ∧
            Dict.get? (stepRoom p info op) "temp_unit" = some (.str (Room.apply lo hi r op).unit) ∧
            Dict.get? (stepRoom p info op) "trv_states" = Dict.get? info "trv_states" ∧
            Dict.get? (stepRoom p info op) "current_temp" = Dict.get? info "current_temp" := by
        intro o ho e1 e2
        rw [e1, e2]
        exact ⟨C69_step lo hi info r.valve o ho h, (C69_others info o _ (by decide)).trans hu, C69_others info o _ (by decide),
          C69_others info o _ (by decide)⟩
      have one : Holds lo hi (stepRoom p info op) (Room.apply lo hi r op).valve ∧
            Dict.get? (stepRoom p info op) "temp_unit" = some (.str (Room.apply lo hi r op).unit) ∧
            Dict.get? (stepRoom p info op) "trv_states" = Dict.get? info "trv_states" ∧
            Dict.get? (stepRoom p info op) "current_temp" = Dict.get? info "current_temp" := by
        cases op with
        | part o => exact part o hop (stepRoom_eq p hp info _) rfl
        | state on => exact part (.state on) trivial (stepRoom_eq p hp info _) rfl
        | target x => exact part (.target x) hop (stepRoom_eq p hp info _) rfl
        | unit u =>
          rw [stepRoom_eq p hp info]
          show Holds lo hi (Dict.set info "temp_unit" (.str u)) r.valve ∧ Dict.get? (Dict.set info "temp_unit" (.str u)) "temp_unit" = some (.str u) ∧ _
          refine ⟨?_, ?_, ?_, ?_⟩
          · constructor <;> rw [Dict.get?_set, if_neg (by decide)]
            · exact h.frost
            · exact h.target
            · exact h.offset
            · exact h.lo
            · exact h.hi
          · rw [Dict.get?_set, if_pos rfl]
          · rw [Dict.get?_set, if_neg (by decide)]
          · rw [Dict.get?_set, if_neg (by decide)]
      obtain ⟨h1, h2, h3, h4⟩ := one
      obtain ⟨g1, g2, g3, g4⟩ := ih _ _ hs' h1 h2
      exact ⟨g1, g2, g3.trans h3, g4.trans h4⟩
  obtain ⟨g1, g2, g3, g4⟩ := key ops info r hs h hu
  rw [hl] at g3
  obtain ⟨c, s⟩ := p
  cases c <;> cases s <;> simp [Parts.thermostat] at hp
  simp only [thState, thMode, thTarget, thUnit, thTemperature, using', if_true]
  generalize ops.foldl (Room.apply lo hi) r = r' at *
  generalize ops.foldl (stepRoom ⟨true, true⟩) info = info' at *
  refine ⟨?_, ?_, ?_, ?_, ?_⟩
  · simp only [state, item, g1.frost, Except.map]
    cases r'.valve.on <;> rfl
  · rw [C69_mode info' (!r'.valve.on) l g1.frost g3]
    cases r'.valve.on <;> rfl
  · simp only [targetTemperature, item, g1.target]
  · simp only [item, g2]
  · simp only [item, g4]

/-- C69: the features of the thermostat module are those of its parts. -/
theorem C69_thermostat_features {α : Type} (p : Parts) (hp : p.thermostat = true) (control sensor : List (String × α)) (id : String) :
    Dict.get? (allFeatures p control sensor) id ≠ none ↔ Dict.get? control id ≠ none ∨ Dict.get? sensor id ≠ none := by
  obtain ⟨c, s⟩ := p
  cases c <;> cases s <;> simp [Parts.thermostat] at hp
  have hup : ∀ (d : List (String × α)) (b : List (String × α)), Dict.get? (Dict.update b d) id ≠ none ↔ Dict.get? b id ≠ none ∨ Dict.get? d id ≠ none := by
    intro d
    induction d with
    | nil => intro b; simp [Dict.update, Dict.get?]
    | cons x d ih =>
      intro b
      obtain ⟨k, v⟩ := x
      show Dict.get? (Dict.update (Dict.set b k v) d) id ≠ none ↔ _
      rw [ih, Dict.get?_set, Dict.get?_cons]
      by_cases hk : k = id <;> simp [hk]
  show Dict.get? (Dict.update (Dict.update [] control) sensor) id ≠ none ↔ _
  rw [hup, hup]
  simp [Dict.get?]

/-- C69 is false of the minimum temperature of frost protection: whatever the device would say of it, the module never asks, and reading
it raises `KeyError` unless the device information has a field of that name. -/
theorem C69_frost_minimum_counterexample (info told : Info) (h : Dict.get? info "min_temp" = none) :
    frostMinimum info told = .error (.other "KeyError") := by
  unfold frostMinimum item
  rw [show frostData info told = info from rfl, h]

/-! Cases. -/

/-- A thermostat at 20 degrees. -/
def sampleRoom : Info :=
  [("frost_protection_on", .num (.bool false)), ("target_temp", .num (.int 20)), ("temp_offset", .num (.int 0)),
   ("min_control_temp", .num (.int 5)), ("max_control_temp", .num (.int 30)), ("trv_states", .arr []), ("temp_unit", .str "celsius"),
   ("current_temp", .num (.int 19))]

example : Holds 5 30 sampleRoom ⟨true, .int 20, .int 0⟩ := ⟨rfl, rfl, rfl, rfl, rfl⟩
example : (Parts.mk true true).thermostat = true ∧ thState ⟨true, true⟩ sampleRoom = .ok true ∧
    thUnit ⟨true, true⟩ (stepRoom ⟨true, true⟩ sampleRoom (.unit "fahrenheit")) = .ok (.str "fahrenheit") := ⟨rfl, rfl, rfl⟩
example : Dict.get? sampleRoom "min_temp" = none := by decide +kernel

end Kasa.Thermostat
