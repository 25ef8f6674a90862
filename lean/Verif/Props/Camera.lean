import Verif.Spec.Camera
/-!
# C68: the switches, the power and the motor of cameras
-/

namespace Kasa.Camera
open CameraSpec SmartModule
open Smart (Entry)

theorem reads (w : Switch) (s : Store) :
    report s (query w) = [(getter w, .value (.obj [((home w).1, .obj [((home w).2, .obj (s (home w).1 (home w).2))])]))] := by
  cases w <;> rfl

theorem getter_inj {v w : Switch} (h : getter v = getter w) : v = w := by
  cases v <;> cases w <;> first | rfl | (exact absurd h (by decide))

theorem update_get (s : Store) (l : List Switch) (w : Switch) (hw : w ∈ l) :
    Dict.get? (update s l) (getter w) =
      some (.value (.obj [((home w).1, .obj [((home w).2, .obj (s (home w).1 (home w).2))])])) := by
  unfold update
  induction l with
  | nil => cases hw
  | cons v l ih =>
    rw [List.flatMap_cons, reads, List.singleton_append, Dict.get?_cons]
    by_cases h : v = w
    · subst h; simp
    · rw [if_neg (fun hg => h (getter_inj hg))]
      rcases List.mem_cons.1 hw with rfl | hw
      · exact absurd rfl h
      · exact ih hw

/-- After an update, a switch that the camera has shows whether its section says "on". -/
theorem C68_shown (s : Store) (l : List Switch) (w : Switch) (hw : w ∈ l) (x : Json)
    (hx : Dict.get? (s (home w).1 (home w).2) "enabled" = some x) :
    enabled w (update s l) = .ok (decide (x = .str "on")) := by
  have hc : camData (getter w) (moduleName w) [getter w] (update s l) =
      .ok (.bare (.obj [((home w).2, .obj (s (home w).1 (home w).2))])) := by
    unfold camData
    rw [update_get s l w hw]
    cases w <;> rfl
  have hi : Ops.item (.obj [((home w).2, .obj (s (home w).1 (home w).2))]) (readSection w) =
      .ok (.obj (s (home w).1 (home w).2)) := by cases w <;> rfl
  have he : Ops.item (.obj (s (home w).1 (home w).2)) "enabled" = .ok x := by
    simp only [Ops.item, hx]
  unfold enabled
  rw [hc]
  simp only [bind, Except.bind, hi, he]
  rfl

/-- A section that the camera answered with an error raises a device error with its code; without an update, a
`KasaException` is raised. -/
theorem C68_unavailable (w : Switch) (last : List (String × Entry)) :
    (∀ c, Dict.get? last (getter w) = some (.error c) → enabled w last = .error (.device (some c))) ∧
    (Dict.get? last (getter w) = none → enabled w last = .error .kasa) := by
  constructor
  · intro c hc
    unfold enabled camData
    rw [hc]
    rfl
  · intro hc
    unfold enabled camData
    rw [hc]
    rfl

theorem obeys (s : Store) (w : Switch) (on : Bool) (m sec : String) :
    obey s (setEnabled w on) m sec =
      if m = (home w).1 ∧ sec = (home w).2 then (s m sec).set "enabled" (.str (if on then "on" else "off")) else s m sec := by
  cases w <;> rfl

/-- The switch that an operation sets. -/
def target : Op → Switch
  | .flip w _ => w
  | .power _ => .lensMask

/-- An operation changes the field `enabled` of the section of its switch, and nothing else that the camera stores. -/
theorem C68_others (have_ : List Switch) (s : Store) (op : Op) (m sec k : String)
    (hk : ¬ (m = (home (target op)).1 ∧ sec = (home (target op)).2 ∧ k = "enabled")) :
    Dict.get? (Store.step have_ s op m sec) k = Dict.get? (s m sec) k := by
  have key : ∀ w on m sec k, ¬ (m = (home w).1 ∧ sec = (home w).2 ∧ k = "enabled") →
      Dict.get? (obey s (setEnabled w on) m sec) k = Dict.get? (s m sec) k := by
    intro w on m sec k hk
    rw [obeys]
    split
    · rename_i h
      exact Dict.get?_set_ne _ _ (fun he => hk ⟨h.1, h.2, he.symm⟩)
    · rfl
  cases op with
  | flip w on =>
    unfold Store.step send
    by_cases h : w ∈ have_
    · simp only [h, if_true]
      exact key w on m sec k hk
    · simp only [h, if_false]
  | power on =>
    unfold Store.step send setState moduleSetState
    by_cases h : Switch.lensMask ∈ have_
    · simp only [h, decide_true, if_true]
      exact key _ _ m sec k hk
    · simp only [h, decide_false, Bool.false_eq_true, if_false]

theorem home_inj {v w : Switch} (h1 : (home v).1 = (home w).1) : v = w := by
  cases v <;> cases w <;> first | rfl | (exact absurd h1 (by decide))

theorem flip_holds (s : Store) (p : Panel) (w : Switch) (on : Bool) (h : Holds s p) :
    Holds (obey s (setEnabled w on)) (fun x => if x = w then on else p x) := by
  intro v
  rw [obeys]
  by_cases hv : v = w
  · subst hv
    simp only [and_self, if_true]
    rw [Dict.get?_set_self]
  · have : ¬ ((home v).1 = (home w).1 ∧ (home v).2 = (home w).2) := fun hh => hv (home_inj hh.1)
    rw [if_neg this]
    simp only [hv, if_false]
    exact h v

/-- Flipping a switch, or the power, changes that switch of the camera and no other. -/
theorem C68_step (have_ : List Switch) (s : Store) (p : Panel) (op : Op) (h : Holds s p) :
    Holds (Store.step have_ s op) (p.apply have_ op) := by
  cases op with
  | flip w on =>
    by_cases hw : w ∈ have_
    · have := flip_holds s p w on h
      simpa only [Store.step, send, Panel.apply, hw, if_true, and_true] using this
    · simpa only [Store.step, send, Panel.apply, hw, if_false, and_false] using h
  | power on =>
    by_cases hw : Switch.lensMask ∈ have_
    · have := flip_holds s p .lensMask (!on) h
      simpa only [Store.step, send, setState, moduleSetState, Panel.apply, hw, if_true, and_true, decide_true] using this
    · simpa only [Store.step, send, setState, moduleSetState, Panel.apply, hw, if_false, and_false, decide_false,
        Bool.false_eq_true] using h

/-- After any number of operations and an update, each switch shows what it was last set to, and the camera is on unless
its lens is masked; a camera without a lens mask is always on. -/
theorem C68_history (have_ : List Switch) (s : Store) (p : Panel) (ops : List Op) (h : Holds s p) :
    let s' := ops.foldl (Store.step have_) s
    let p' := ops.foldl (Panel.apply have_) p
    (∀ w ∈ have_, enabled w (update s' have_) = .ok (p' w)) ∧
    isOn (.present false) (decide (.lensMask ∈ have_)) (update s' have_) =
      .ok (if Switch.lensMask ∈ have_ then !p' .lensMask else true) := by
  have hh : ∀ (ops : List Op) (s : Store) (p : Panel), Holds s p →
      Holds (ops.foldl (Store.step have_) s) (ops.foldl (Panel.apply have_) p) := by
    intro ops
    induction ops with
    | nil => exact fun _ _ h => h
    | cons op ops ih => exact fun s p h => ih _ _ (C68_step have_ s p op h)
  have hs := hh ops s p h
  have shown : ∀ w ∈ have_, enabled w (update (ops.foldl (Store.step have_) s) have_) =
      .ok (ops.foldl (Panel.apply have_) p w) := by
    intro w hw
    rw [C68_shown _ _ w hw _ (hs w)]
    cases ops.foldl (Panel.apply have_) p w <;> rfl
  refine ⟨shown, ?_⟩
  unfold isOn moduleIsOn
  by_cases hw : Switch.lensMask ∈ have_
  · simp only [hw, decide_true, if_true]
    rw [shown _ hw]
    rfl
  · simp only [hw, decide_false, Bool.false_eq_true, if_false]

/-- Turning a camera with a lens mask on or off makes the next update say so; nothing is sent to a camera without one, or
whose camera module is missing or disabled, and it is always shown as on. -/
theorem C68_power (s : Store) (p : Panel) (h : Holds s p) (have_ : List Switch) (on : Bool) :
    (Switch.lensMask ∈ have_ →
      isOn (.present false) true (update (Store.step have_ s (.power on)) have_) = .ok on) ∧
    (∀ m hasMask last, m ≠ .present false ∨ hasMask = false →
      setState m hasMask on = none ∧ isOn m hasMask last = .ok true) := by
  constructor
  · intro hw
    have := (C68_history have_ s p [.power on] h).2
    simp only [List.foldl, hw, decide_true, if_true, Panel.apply, and_self, Bool.not_not] at this
    exact this
  · rintro m hasMask last hm
    cases m with
    | absent => exact ⟨rfl, rfl⟩
    | present d =>
      cases d with
      | true => exact ⟨rfl, rfl⟩
      | false =>
        rcases hm with hm | hm
        · exact absurd rfl hm
        · subst hm
          exact ⟨rfl, rfl⟩

/-! ## Motor -/

theorem turned_move (xy : Int × Int) (a b : Int) : turned xy (move a b) = (xy.1 + a, xy.2 + b) := by
  unfold turned move
  simp only [Int.toInt?_repr]

/-- After any sequence of turns and changes of the steps, the lens points where their sum says. -/
theorem C68_motor (p : Pose) (ts : List Turn) :
    ts.foldl act (p.steps, (p.x, p.y)) =
      ((ts.foldl Pose.turn p).steps, ((ts.foldl Pose.turn p).x, (ts.foldl Pose.turn p).y)) := by
  induction ts generalizing p with
  | nil => rfl
  | cons t ts ih =>
    rw [List.foldl_cons, List.foldl_cons, ← ih]
    congr 1
    cases t <;>
      simp only [act, Pose.turn, panRight, panLeft, tiltUp, tiltDown, pan, tilt, turned_move, Int.add_zero] <;>
      first
        | rfl
        | (congr 2; omega)
        | (congr 3; omega)

/-- Right and left, and up and down, undo each other. -/
theorem C68_motor_undo (p : Pose) :
    [Turn.right, .left].foldl act (p.steps, (p.x, p.y)) = (p.steps, (p.x, p.y)) ∧
    [Turn.up, .down].foldl act (p.steps, (p.x, p.y)) = (p.steps, (p.x, p.y)) := by
  constructor
  · rw [C68_motor]
    simp only [List.foldl, Pose.turn]
    rw [Int.sub_add_cancel]
  · rw [C68_motor]
    simp only [List.foldl, Pose.turn]
    rw [Int.add_sub_cancel]

/-! ## Battery -/

/-- `battery_charging` does not depend on what the camera says about charging: it is true of every camera that reports its
voltage as a number. -/
theorem C68_always_charging (info : Dict String Json) (volts : Int)
    (h : Dict.get? info "battery_voltage" = some (.num volts)) (charging : Json) :
    batteryCharging (.obj info) = .ok true ∧ batteryCharging (.obj (info.set "battery_charging" charging)) = .ok true := by
  have h' : Dict.get? (info.set "battery_charging" charging) "battery_voltage" = some (.num volts) := by
    rw [Dict.get?_set_ne _ _ (by decide), h]
  constructor
  · simp only [batteryCharging, Ops.item, h]
    rfl
  · simp only [batteryCharging, Ops.item, h']
    rfl

/-! ## Examples -/

def store1 : Store := fun m sec =>
  if m = "lens_mask" ∧ sec = "lens_mask_info" then [("enabled", .str "off"), (".name", .str "lens_mask_info")]
  else [("enabled", .str "on"), ("sensitivity", .str "medium")]

theorem store1_holds : Holds store1 (fun w => decide (w ≠ .lensMask)) := by
  intro w
  cases w <;> rfl

/-- Motion detection off, the camera off, a switch it does not have, the camera on and off. -/
def ops1 : List Op := [.flip .motion false, .power false, .flip .pet false, .power true, .power false]

example : isOn (.present false) true (update (ops1.foldl (Store.step [.lensMask, .motion]) store1) [.lensMask, .motion]) =
    .ok false := (C68_history [.lensMask, .motion] store1 _ ops1 store1_holds).2

example : enabled .motion (update (ops1.foldl (Store.step [.lensMask, .motion]) store1) [.lensMask, .motion]) = .ok false :=
  (C68_history [.lensMask, .motion] store1 _ ops1 store1_holds).1 .motion (by decide)

example : [Turn.right, .panStep 5, .left, .up, .move (-3) 4].foldl act (⟨30, 10⟩, (0, 0)) = (⟨5, 10⟩, (-28, 14)) :=
  C68_motor ⟨0, 0, ⟨30, 10⟩⟩ _

end Kasa.Camera
