import Verif.Spec.Behaviours
import Verif.Props.IotDevice
/-!
# C102: what bulbs do when turned on, and what buttons and fades of dimmers do
-/

namespace Kasa.Behaviours
open BehavioursSpec IotSpec Ops Rules

theorem lift_bind {S α β : Type} (x : PyM S α) (f : α → Except Exc β) (d : S) :
    (x >>= fun v => PyM.lift (f v)) d = match x d with | (.ok v, s) => (f v, s) | (.error e, s) => (.error e, s) := by
  rw [PyM.bind_apply]
  cases x d with
  | mk r s =>
    cases r with
    | error e => rfl
    | ok a =>
      show PyM.lift (f a) s = (f a, s)
      cases f a <;> rfl

section
variable {D : Type} (step : Step D)

theorem create_some (service cmd : String) (args : List (String × Json)) :
    Iot.createRequest service cmd (some (.obj args)) none = request service cmd args := rfl

theorem create_none (service cmd : String) : Iot.createRequest service cmd none none = request service cmd [] := rfl

theorem call_answers {service cmd : String} {args : List (String × Json)} {arg : Option Json} {d : D} {values : List (String × Json)}
    (hr : Iot.createRequest service cmd arg none = request service cmd args)
    (ha : Answers service cmd (step d (request service cmd args)).1 values) :
    ∃ z, call step service cmd arg d = (.ok (.obj z), (step d (request service cmd args)).2) ∧ ∀ k, Dict.get? values k = Dict.get? z k := by
  obtain ⟨response, h1, h2, h3⟩ := ha
  rw [← hr] at h1
  obtain ⟨z, hz, hk⟩ := Iot.C23_accepted (fun r => (step d r).1) service cmd arg none response (.obj values) h1 h2 h3
  refine ⟨z, ?_, hk⟩
  unfold call
  rw [hz, hr]

theorem call_refused {service cmd : String} {args : List (String × Json)} {d : D} {response : Json}
    (h1 : (step d (request service cmd args)).1 = .ok response) (h2 : Refused service cmd response) :
    call step service cmd (some (.obj args)) d = (.error .kasa, (step d (request service cmd args)).2) := by
  unfold call
  rw [Iot.C23_refused_partial (fun r => (step d r).1) service cmd (some (.obj args)) none response h1 h2]
  rfl

theorem optional_maybe (toInt : String → Option Int) {kvs : List (String × Json)} {key : String} {x : Option Int} (h : Maybe kvs key x) :
    Rules.optional kvs key (asInt toInt) = .ok x := by
  unfold Rules.optional
  cases x with
  | none => rcases (show Dict.get? kvs key = none ∨ Dict.get? kvs key = some .null from h) with h | h <;> rw [h]
  | some n => rw [show Dict.get? kvs key = some (.num n) from h]; rfl

theorem from_says (toInt : String → Option Int) {kvs : List (String × Json)} {b : Behavior} (h : Says kvs b) :
    behaviorFrom toInt (.obj kvs) = .ok b := by
  have hm : asMode (.str (modeText b.mode)) = .ok b.mode := by cases b.mode <;> rfl
  unfold behaviorFrom
  simp only [item, h.mode, hm, optional_maybe toInt h.preset, optional_maybe toInt h.brightness, optional_maybe toInt h.colorTemp,
    optional_maybe toInt h.hue, optional_maybe toInt h.saturation, bind, Except.bind, pure, Except.pure]

/-- **C102, read.** The turn-on behaviour read is what the bulb holds, all fields of it, and reading changes nothing. -/
theorem C102_read (toInt : String → Option Int) (service : String) (soft hard : D → Behavior) (hb : Bulb service step soft hard) (d : D) :
    getTurnOn step toInt service d = (.ok ⟨soft d, hard d⟩, d) := by
  obtain ⟨hd, values, s, h, ha, hs, hs', hh, hh'⟩ := hb.asked d
  obtain ⟨z, hz, hk⟩ := call_answers step (create_none service "get_default_behavior") ha
  unfold getTurnOn
  rw [lift_bind, hz, hd]
  simp only [behaviorsFrom, item, ← hk, hs, hh, from_says toInt hs', from_says toInt hh', bind, Except.bind, pure, Except.pure]

theorem written_get (key k : String) (x : Option Int) :
    Dict.get? (written key x) k = if key = k then x.map .num else none := by
  cases x <;> simp [written, Dict.get?_cons, Dict.get?_nil]

theorem to_says (b : Behavior) : ∃ kvs, behaviorTo b = .obj kvs ∧ Says kvs b := by
  refine ⟨_, rfl, ?_⟩
  obtain ⟨m, p, br, c, h, s⟩ := b
  have hm : m.value = modeText m := by cases m <;> rfl
  constructor
  · simp [Dict.get?_cons, hm]
  all_goals
    cases p <;> cases br <;> cases c <;> cases h <;> cases s <;> simp [Maybe, written, Dict.get?_cons, Dict.get?_nil]

/-- What setting the turn-on behaviour should do: the call succeeds, and the bulb then holds it. -/
def SetsBehaviour (service : String) (soft hard : D → Behavior) (b : Behaviors) (d : D) : Prop :=
  (∃ v, (setTurnOn step service b d).1 = .ok v) ∧
    soft (setTurnOn step service b d).2 = b.soft ∧ hard (setTurnOn step service b d).2 = b.hard

theorem set_eq (service : String) (soft hard : D → Behavior) (hb : Bulb service step soft hard) (b : Behaviors) (d : D) :
    ∃ z, setTurnOn step service b d = (.ok (.obj z), (step d (request service "set_default_behavior"
      [("soft", behaviorTo b.soft), ("hard", behaviorTo b.hard)])).2) := by
  obtain ⟨values, ha⟩ := hb.accepts d [("soft", behaviorTo b.soft), ("hard", behaviorTo b.hard)]
  obtain ⟨z, hz, -⟩ := call_answers step (create_some service "set_default_behavior" _) ha
  exact ⟨z, hz⟩

theorem set_keeps (service : String) (soft hard : D → Behavior) (hb : Bulb service step soft hard) (b : Behaviors) (d : D) :
    soft (setTurnOn step service b d).2 = soft d ∧ hard (setTurnOn step service b d).2 = hard d := by
  obtain ⟨z, hz⟩ := set_eq step service soft hard hb b d
  rw [hz]
  exact ⟨hb.keepsSoft _ _ (by simp [Dict.get?_cons, Dict.get?_nil]), hb.keepsHard _ _ (by simp [Dict.get?_cons, Dict.get?_nil])⟩

/-- **C102, set, in part.** Setting the turn-on behaviour succeeds, and each of its two parts is sent so that a bulb that takes it does as asked; a
bulb that does so already still does.  (What is missing: the two parts are sent by the names `soft` and `hard`, which no bulb reports.) -/
theorem C102_set_partial (service : String) (soft hard : D → Behavior) (hb : Bulb service step soft hard) (b : Behaviors) (d : D) :
    (∃ v, (setTurnOn step service b d).1 = .ok v) ∧
    (∃ s h, (setTurnOn step service b d).2 = (step d (request service "set_default_behavior" [("soft", .obj s), ("hard", .obj h)])).2 ∧
      Says s b.soft ∧ Says h b.hard) ∧
    (soft d = b.soft → hard d = b.hard → SetsBehaviour step service soft hard b d) := by
  obtain ⟨z, hz⟩ := set_eq step service soft hard hb b d
  obtain ⟨h1, h2⟩ := set_keeps step service soft hard hb b d
  obtain ⟨s, hs, hs'⟩ := to_says b.soft
  obtain ⟨h, hh, hh'⟩ := to_says b.hard
  refine ⟨⟨_, by rw [hz]⟩, ⟨s, h, by rw [hz, hs, hh], hs', hh'⟩, fun e1 e2 => ⟨⟨_, by rw [hz]⟩, ?_, ?_⟩⟩
  · rw [h1, e1]
  · rw [h2, e2]

/-- **C102, set, fails.** Setting the turn-on behaviour of a bulb never changes it: it succeeds, and the bulb still holds what it held. -/
theorem C102_set_counterexample (service : String) (soft hard : D → Behavior) (hb : Bulb service step soft hard) (b : Behaviors) (d : D) :
    (∃ v, (setTurnOn step service b d).1 = .ok v) ∧
    (soft (setTurnOn step service b d).2 = soft d ∧ hard (setTurnOn step service b d).2 = hard d) ∧
    (soft d ≠ b.soft ∨ hard d ≠ b.hard → ¬ SetsBehaviour step service soft hard b d) := by
  obtain ⟨z, hz⟩ := set_eq step service soft hard hb b d
  obtain ⟨h1, h2⟩ := set_keeps step service soft hard hb b d
  refine ⟨⟨_, by rw [hz]⟩, ⟨h1, h2⟩, ?_⟩
  rintro hn ⟨-, e1, e2⟩
  rcases hn with hn | hn
  · exact hn (by rw [← h1, e1])
  · exact hn (by rw [← h2, e2])

/-- **C102, choosing a preset, fails.** Contrary to its documentation it is not enough to change the preset of a behaviour: what is sent keeps the mode,
so that a bulb told a preset still goes to its last state, and one told none still to a preset. -/
theorem C102_preset_counterexample (b : Behavior) (i : Option Int) :
    ∃ kvs, behaviorTo { b with preset := i } = .obj kvs ∧ Dict.get? kvs "mode" = some (.str (modeText b.mode)) ∧
      ∀ b', Says kvs b' → b'.mode = b.mode := by
  obtain ⟨kvs, h1, h2⟩ := to_says { b with preset := i }
  refine ⟨kvs, h1, h2.mode, fun b' h' => ?_⟩
  have := h'.mode.symm.trans h2.mode
  revert this
  show some (Json.str (modeText b'.mode)) = some (.str (modeText b.mode)) → _
  cases b'.mode <;> cases b.mode <;> simp [modeText]

end

/-! ## Dimmers -/

/-- **C102, buttons and fades, in part.** A button action or fade time given by the texts of the device is what the device then does, and nothing
else about it changes.  (What is missing: with the members of the enumerations, as documented, this fails.) -/
theorem C102_orders_partial (step : Step Dimmer) (ho : Obeys step) (o : Order) (d : Dimmer) :
    (∃ v, (withTexts step o d).1 = .ok v) ∧ (withTexts step o d).2 = o.effect d := by
  obtain ⟨h1, values, h2⟩ := ho.obeys d o
  obtain ⟨z, hz, -⟩ := call_answers step (create_some service o.command o.args) h2
  have : withTexts step o d = call step service o.command (some (.obj o.args)) d := by
    rcases o with ⟨t, a, i⟩ | ⟨f, time⟩
    · cases t <;> cases i <;> rfl
    · cases f <;> rfl
  rw [this, hz]
  exact ⟨⟨_, rfl⟩, h1⟩

/-- **C102, buttons and fades, fail.** Given as documented, by the members of the enumerations, no button action and no fade time is ever set: the
device is sent a command it does not know. -/
theorem C102_orders_counterexample (step : Step Dimmer) (ho : Obeys step) (o : Order) (d : Dimmer) :
    withMembers step o d = (.error .kasa, d) := by
  have key : ∀ cmd args, cmd ∉ "get_default_behavior" :: commands → call step service cmd (some (.obj args)) d = (.error .kasa, d) := by
    intro cmd args hn
    obtain ⟨h1, response, h2, h3⟩ := ho.refuses d cmd args (.inl hn)
    rw [call_refused step h2 h3, h1]
  rcases o with ⟨t, a, i⟩ | ⟨f, time⟩
  · cases t
    · exact key "set_ActionType.DoubleClick" _ (by decide)
    · exact key "set_ActionType.LongPress" _ (by decide)
  · cases f
    · exact key "set_FadeType.FadeOn_time" _ (by decide)
    · exact key "set_FadeType.FadeOff_time" _ (by decide)

/-- **C102, buttons, fail also** if only the action is given as a member. -/
theorem C102_action_counterexample (step : Step Dimmer) (ho : Obeys step) (t : ActionType) (a : ButtonAction) (i : Option Int) (d : Dimmer) :
    setButtonAction step true (.text (typeText t)) (.member a) i d = (.error .kasa, d) := by
  have hw : ∀ c, Dict.get? ([("mode", .str a.str)] ++ written "index" i) "mode" ≠ some (.str (actionText c)) := by
    intro c
    simp only [List.cons_append, List.nil_append, Dict.get?_cons, if_true]
    cases a <;> cases c <;> simp [ButtonAction.str, actionText]
  have key : ∀ cmd, cmd ∈ ["set_double_click_action", "set_long_press_action"] →
      call step service cmd (some (.obj ([("mode", .str a.str)] ++ written "index" i))) d = (.error .kasa, d) := by
    intro cmd hm
    obtain ⟨h1, response, h2, h3⟩ := ho.refuses d cmd _ (.inr ⟨hm, hw⟩)
    rw [call_refused step h2 h3, h1]
  cases t
  · exact key "set_double_click_action" (by decide)
  · exact key "set_long_press_action" (by decide)

/-- **C102, what a dimmer tells** of its buttons and fades is returned as it is, and asking changes nothing. -/
theorem C102_told (step : Step Dimmer) (ho : Obeys step) (d : Dimmer) (values : List (String × Json))
    (ha : Answers service "get_default_behavior" (step d (request service "get_default_behavior" [])).1 values) :
    ∃ z, getBehaviors step true d = (.ok (.obj z), d) ∧ ∀ k, Dict.get? values k = Dict.get? z k := by
  obtain ⟨z, hz, hk⟩ := call_answers step (create_some service "get_default_behavior" []) ha
  rw [ho.tells d] at hz
  exact ⟨z, hz, hk⟩

/-- **C102, before an update** nothing is sent and the calls fail. -/
theorem C102_before_update {D : Type} (step : Step D) (d : D) (t : Arg ActionType) (a : Arg ButtonAction) (i : Option Int) (f : Arg FadeType)
    (time : Int) :
    setButtonAction step false t a i d = (.error .kasa, d) ∧ setFadeTime step false f time d = (.error .kasa, d) ∧
      getBehaviors step false d = (.error .kasa, d) := ⟨rfl, rfl, rfl⟩

/-! ## Cases -/

/-- What a bulb takes from a dict. -/
def sampleTake (args : List (String × Json)) (key : String) (b : Behavior) : Behavior :=
  match Dict.get? args key with
  | some v => match behaviorFrom (fun _ => none) v with | .ok b' => b' | .error _ => b
  | none => b

/-- A bulb. -/
def sampleBulb : Step (Behavior × Behavior) := fun d r =>
  match r with
  | .obj [(s, .obj [(c, .obj args)])] =>
    if c = "get_default_behavior" then
      (.ok (.obj [(s, .obj [(c, .obj [("soft_on", behaviorTo d.1), ("hard_on", behaviorTo d.2)])])]), d)
    else (.ok (.obj [(s, .obj [(c, .obj [])])]), (sampleTake args "soft_on" d.1, sampleTake args "hard_on" d.2))
  | _ => (.ok (.obj []), d)

theorem single_wf (k : String) (v : Json) : Dict.WF [(k, v)] := by simp [Dict.WF, Dict.keys]

theorem behavior_proper (b : Behavior) : Proper (behaviorTo b) := by
  obtain ⟨m, p, br, c, h, s⟩ := b
  refine .obj _ ?_ ?_
  · cases p <;> cases br <;> cases c <;> cases h <;> cases s <;> simp [written, Dict.WF, Dict.keys]
  · cases p <;> cases br <;> cases c <;> cases h <;> cases s <;> simp [written, Proper.str, Proper.num]

theorem answers_of (service cmd : String) (values : List (String × Json)) (hw : Dict.WF values) (hp : ∀ kv ∈ values, Proper kv.2)
    (hc : cmd ≠ "err_code") (hn : Dict.get? values "err_code" = none) :
    Answers service cmd (.ok (.obj [(service, .obj [(cmd, .obj values)])])) values := by
  refine ⟨_, rfl, .obj _ (single_wf _ _) ?_, .mk _ [(cmd, .obj values)] values _ (by simp [Dict.get?_cons]) (by simp [Dict.get?_cons])
    (.inl (by simp [Dict.get?_cons, Dict.get?_nil, hc])) (.inl hn) ?_⟩
  · intro kv hkv
    rw [List.mem_singleton] at hkv
    subst hkv
    refine .obj _ (single_wf _ _) ?_
    intro kv hkv
    rw [List.mem_singleton] at hkv
    subst hkv
    exact .obj _ hw hp
  · intro k
    by_cases hk : k = "err_code"
    · subst hk; rw [if_pos rfl, hn]
    · rw [if_neg hk]

theorem sampleBulb_get (service : String) (d : Behavior × Behavior) : sampleBulb d (request service "get_default_behavior" []) =
    (.ok (.obj [(service, .obj [("get_default_behavior", .obj [("soft_on", behaviorTo d.1), ("hard_on", behaviorTo d.2)])])]), d) := rfl

theorem sampleBulb_set (service : String) (d : Behavior × Behavior) (args : List (String × Json)) :
    sampleBulb d (request service "set_default_behavior" args) = (.ok (.obj [(service, .obj [("set_default_behavior", .obj [])])]),
      (sampleTake args "soft_on" d.1, sampleTake args "hard_on" d.2)) := rfl

theorem take_some {args : List (String × Json)} {key : String} {kvs : List (String × Json)} {b b' : Behavior} (h : Dict.get? args key = some (.obj kvs))
    (hs : Says kvs b) : sampleTake args key b' = b := by
  unfold sampleTake
  simp only [h, from_says _ hs]

theorem take_none {args : List (String × Json)} {key : String} {b : Behavior} (h : Dict.get? args key = none) : sampleTake args key b = b := by
  unfold sampleTake
  simp only [h]

theorem sample_bulb (service : String) : Bulb service sampleBulb (·.1) (·.2) where
  asked d := by
    refine ⟨by rw [sampleBulb_get], ?_⟩
    obtain ⟨s, hs, hs'⟩ := to_says d.1
    obtain ⟨h, hh, hh'⟩ := to_says d.2
    refine ⟨[("soft_on", behaviorTo d.1), ("hard_on", behaviorTo d.2)], s, h, ?_, by rw [← hs]; rfl, hs', by rw [← hh]; rfl, hh'⟩
    rw [sampleBulb_get]
    exact answers_of _ _ _ (by simp [Dict.WF, Dict.keys]) (by simp [behavior_proper]) (by decide) rfl
  accepts d args := ⟨[], by rw [sampleBulb_set]; exact answers_of _ _ _ (by simp [Dict.WF, Dict.keys]) (by simp) (by decide) rfl⟩
  takesSoft d args kvs b h hs := by rw [sampleBulb_set]; exact take_some h hs
  takesHard d args kvs b h hs := by rw [sampleBulb_set]; exact take_some h hs
  keepsSoft d args h := by rw [sampleBulb_set]; exact take_none h
  keepsHard d args h := by rw [sampleBulb_set]; exact take_none h

/-- A behaviour. -/
def sampleBehavior : Behavior := ⟨.preset, some 2, none, none, none, none⟩

/-- Another one. -/
def sampleLast : Behavior := ⟨.last, none, some 50, some 2700, some 0, some 0⟩

example := C102_read sampleBulb (fun _ => none) "smartlife.iot.smartbulb.lightingservice" _ _ (sample_bulb _) (sampleBehavior, sampleLast)
example := C102_set_partial sampleBulb "smartlife.iot.smartbulb.lightingservice" _ _ (sample_bulb _) ⟨sampleBehavior, sampleLast⟩ (sampleLast, sampleLast)
example : ¬ SetsBehaviour sampleBulb "smartlife.iot.smartbulb.lightingservice" (·.1) (·.2) ⟨sampleBehavior, sampleLast⟩ (sampleLast, sampleLast) :=
  (C102_set_counterexample sampleBulb "smartlife.iot.smartbulb.lightingservice" _ _ (sample_bulb _) ⟨sampleBehavior, sampleLast⟩
    (sampleLast, sampleLast)).2.2 (.inl (by decide))
example := C102_preset_counterexample sampleLast (some 1)

/-- The action of a text. -/
def sampleAction (s : String) : Option ButtonAction :=
  if s = "none" then some .noAction else if s = "instant_on_off" then some .instant else if s = "gentle_on_off" then some .gentle
  else if s = "customize_preset" then some .preset else none

/-- The order of a command. -/
def sampleOrder (c : String) (args : List (String × Json)) : Option Order :=
  let button (t : ActionType) : Option Order :=
    match Dict.get? args "mode" with
    | some (.str s) => (sampleAction s).map fun a => .button t a (match Dict.get? args "index" with | some (.num i) => some i | _ => none)
    | _ => none
  let fade (f : FadeType) : Option Order :=
    match Dict.get? args "fadeTime" with
    | some (.num t) => some (.fade f t)
    | _ => none
  if c = "set_double_click_action" then button .doubleClick
  else if c = "set_long_press_action" then button .longPress
  else if c = "set_fade_on_time" then fade .fadeOn
  else if c = "set_fade_off_time" then fade .fadeOff
  else none

/-- A dimmer. -/
def sampleDimmer : Step Dimmer := fun d r =>
  match r with
  | .obj [(s, .obj [(c, .obj args)])] =>
    if c = "get_default_behavior" then (.ok (.obj [(s, .obj [(c, .obj [])])]), d)
    else match sampleOrder c args with
      | some o => (.ok (.obj [(s, .obj [(c, .obj [])])]), o.effect d)
      | none => (.ok (.obj [(s, .obj [(c, .obj [("err_code", .num (-2))])])]), d)
  | _ => (.ok (.obj []), d)

theorem action_text (a : ButtonAction) : sampleAction (actionText a) = some a := by cases a <;> rfl

theorem order_of (o : Order) : sampleOrder o.command o.args = some o := by
  rcases o with ⟨t, a, i⟩ | ⟨f, time⟩
  · cases t <;> cases i <;> cases a <;> rfl
  · cases f <;> rfl

theorem action_none {s : String} (h : ∀ a, s ≠ actionText a) : sampleAction s = none := by
  unfold sampleAction
  rw [if_neg (show s ≠ "none" from h .noAction), if_neg (show s ≠ "instant_on_off" from h .instant),
    if_neg (show s ≠ "gentle_on_off" from h .gentle), if_neg (show s ≠ "customize_preset" from h .preset)]

theorem sample_obeys : Obeys sampleDimmer where
  obeys d o := by
    have hc : o.command ≠ "get_default_behavior" ∧ o.command ≠ "err_code" := by
      rcases o with ⟨t, a, i⟩ | ⟨f, time⟩
      · cases t <;> simp [Order.command]
      · cases f <;> simp [Order.command]
    have : sampleDimmer d (request service o.command o.args) = (.ok (.obj [(service, .obj [(o.command, .obj [])])]), o.effect d) := by
      simp only [sampleDimmer, request, if_neg hc.1, order_of]
    rw [this]
    exact ⟨rfl, [], answers_of _ _ _ (by simp [Dict.WF, Dict.keys]) (by simp) hc.2 rfl⟩
  refuses d cmd args h := by
    have hn : cmd ≠ "get_default_behavior" ∧ sampleOrder cmd args = none := by
      rcases h with h | ⟨h, hm⟩
      · simp only [commands, List.mem_cons, not_or] at h
        obtain ⟨h0, h1, h2, h3, h4, -⟩ := h
        exact ⟨h0, by unfold sampleOrder; rw [if_neg h1, if_neg h2, if_neg h3, if_neg h4]⟩
      · have hb : ∀ t : ActionType, (match Dict.get? args "mode" with
            | some (.str s) => (sampleAction s).map fun a => Order.button t a (match Dict.get? args "index" with | some (.num i) => some i | _ => none)
            | _ => none) = none := by
          intro t
          split
          · rename_i s hs
            rw [action_none (fun a e => hm a (by rw [hs, e]))]
            rfl
          · rfl
        simp only [List.mem_cons, List.not_mem_nil, or_false] at h
        rcases h with rfl | rfl
        · exact ⟨by decide, hb .doubleClick⟩
        · exact ⟨by decide, hb .longPress⟩
    have : sampleDimmer d (request service cmd args) = (.ok (.obj [(service, .obj [(cmd, .obj [("err_code", .num (-2))])])]), d) := by
      simp only [sampleDimmer, request, if_neg hn.1, hn.2]
    rw [this]
    exact ⟨rfl, _, rfl, .commandError _ [(cmd, .obj [("err_code", .num (-2))])] [("err_code", .num (-2))] (-2) (by simp [Dict.get?_cons])
      (by simp [Dict.get?_cons]) rfl (by decide)⟩
  tells d := rfl

/-- The state of a dimmer. -/
def sampleState : Dimmer := ⟨fun _ => (.noAction, none), fun _ => 1000⟩

example := C102_orders_partial sampleDimmer sample_obeys (.button .longPress .preset (some 1)) sampleState
example := C102_orders_counterexample sampleDimmer sample_obeys (.fade .fadeOn 2000) sampleState
example := C102_action_counterexample sampleDimmer sample_obeys .doubleClick .gentle none sampleState
example := C102_told sampleDimmer sample_obeys sampleState [] (answers_of _ _ _ (by simp [Dict.WF, Dict.keys]) (by simp) (by decide) rfl)
example := C102_before_update sampleDimmer sampleState (.member .doubleClick) (.text "none") none (.text "fade_on") 5

end Kasa.Behaviours
