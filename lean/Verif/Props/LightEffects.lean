import Verif.Model.LightEffects
import Verif.Spec.LightEffects
import Verif.Props.Names
/-!
# C64: light effects are selected, reported and switched off by the names they are listed under
-/

namespace Kasa.LightEffects
open PyM NamesSpec LightEffectsSpec Ops Names

/-! ## Helper lemmas -/

theorem sceneName_of_shown {id : String} {x : Json} {name : String} (h : Shown id x name) :
    sceneName id x = .ok name := by
  unfold sceneName
  rcases h with ⟨h1, h2⟩ | ⟨h1, h2⟩
  · rw [if_neg (by simp [h1])]
    rcases h2 with ⟨rfl, rfl⟩ | ⟨rfl, rfl⟩ <;> rfl
  · rw [if_pos h1]
    rcases h2 with h2 | ⟨rfl, h2, h3⟩
    · rw [(unb64_iff _ _).2 h2]
    · have : unb64 (.str name) = .error (.other "binascii.Error") := by
        unfold unb64
        simp only [h3]
        rw [if_pos]
        rw [List.all_eq_true]
        intro c hc
        simpa using h2 c hc
      rw [this]
      rfl

theorem fold_set_nodup {α : Type} (l : List (String × α)) (d : Dict String α)
    (h : (Dict.keys d ++ l.map (·.1)).Nodup) : l.foldl (fun d e => Dict.set d e.1 e.2) d = d ++ l := by
  induction l generalizing d with
  | nil => simp
  | cons p l ih =>
    have hp : p.1 ∉ Dict.keys d := by
      intro hm
      rw [List.map_cons, List.nodup_append] at h
      exact h.2.2 _ hm _ (List.mem_cons_self) rfl
    rw [List.foldl_cons, Dict.set_append_of_not_mem _ hp, ih]
    · simp
    · rw [Dict.keys_append]
      simpa [Dict.keys] using h

theorem mapM_ok {α β : Type} {f : α → Except Exc β} {g : α → β} (xs : List α) (h : ∀ x ∈ xs, f x = .ok (g x)) :
    xs.mapM f = .ok (xs.map g) := by
  rw [getElem?_pairs]
  refine ⟨by simp, fun i x y hx hy => ?_⟩
  rw [List.getElem?_map, hx] at hy
  cases hy
  exact h x (List.mem_of_getElem? hx)

/-- The effects under their ids, named. -/
def statesOf (es : List Entry) : Dict String (List (String × Json)) :=
  es.map fun e => (e.id, Dict.set e.rule "scene_name" (.str e.name))

/-- The ids under the names. -/
def idsOf (es : List Entry) : Dict String String :=
  es.foldl (fun d e => Dict.set d e.name e.id) []

theorem byId_eq {es : List Entry} (hd : (es.map (·.id)).Nodup)
    (hid : ∀ e ∈ es, Dict.get? e.rule "id" = some (.str e.id)) :
    byId (es.map fun e => .obj e.rule) = .ok (es.map fun e => (e.id, e.rule)) := by
  unfold byId
  have : (es.map fun e => Json.obj e.rule).mapM (fun x => (do
      let rule ← asRule x
      pure (← ruleId rule, rule) : Except Exc (String × List (String × Json)))) =
      .ok (es.map fun e => (e.id, e.rule)) := by
    rw [getElem?_pairs]
    refine ⟨by simp, fun i x y hx hy => ?_⟩
    rw [List.getElem?_map] at hx hy
    cases he : es[i]? with
    | none => rw [he] at hx; cases hx
    | some e =>
      rw [he] at hx hy
      cases hx
      cases hy
      have := hid e (List.mem_of_getElem? he)
      simp only [asRule, ruleId, bind, Except.bind, this]
      rfl
  rw [this]
  show Except.ok _ = _
  rw [fold_set_nodup]
  · rfl
  · simpa [Dict.keys, List.map_map, Function.comp_def] using hd

theorem named_eq {es : List Entry} (hn : ∀ e ∈ es, ∃ x, Dict.get? e.rule "scene_name" = some x ∧ Shown e.id x e.name) :
    (es.map fun e => (e.id, e.rule)).mapM named =
      .ok (es.map fun e => (e.name, Dict.set e.rule "scene_name" (.str e.name))) := by
  rw [getElem?_pairs]
  refine ⟨by simp, fun i x y hx hy => ?_⟩
  rw [List.getElem?_map] at hx hy
  cases he : es[i]? with
  | none => rw [he] at hx; cases hx
  | some e =>
    rw [he] at hx hy
    cases hx
    cases hy
    obtain ⟨x, h1, h2⟩ := hn e (List.mem_of_getElem? he)
    unfold named
    simp only [h1, sceneName_of_shown h2]
    rfl

theorem zipWith_maps {α β γ δ : Type} (f : β → γ → δ) (g : α → β) (h : α → γ) (l : List α) :
    List.zipWith f (l.map g) (l.map h) = l.map fun x => f (g x) (h x) := by
  induction l with
  | nil => rfl
  | cons x l ih => simp [ih]

theorem hook_eq {data : Json} {es : List Entry} (h : Lists data es) (info : Json) :
    hook data info = (currentEffect (statesOf es) info).map fun effect =>
      { states := statesOf es, effectList := off :: es.map (·.name), namesToId := idsOf es, effect := effect } := by
  unfold hook
  rw [(item_iff _ _ _).2 h.rules]
  simp only [iter, bind, Except.bind]
  rw [byId_eq h.distinct h.id]
  simp only
  rw [named_eq h.name]
  simp only [zipWith_maps, List.map_map, Function.comp_def, List.foldl_map]
  cases hc : currentEffect (statesOf es) info with
  | error e =>
    unfold statesOf at hc
    rw [hc]
    rfl
  | ok n =>
    have hc' := hc
    unfold statesOf at hc'
    rw [hc']
    rfl

theorem get?_statesOf {es : List Entry} (hd : (es.map (·.id)).Nodup) (id : String) (r : List (String × Json)) :
    Dict.get? (statesOf es) id = some r ↔ ∃ e ∈ es, e.id = id ∧ r = Dict.set e.rule "scene_name" (.str e.name) := by
  rw [Dict.get?_eq_some_iff]
  · unfold statesOf
    simp only [List.mem_map, Prod.mk.injEq]
    constructor
    · rintro ⟨e, h1, h2, h3⟩; exact ⟨e, h1, h2, h3.symm⟩
    · rintro ⟨e, h1, h2, h3⟩; exact ⟨e, h1, h2, h3.symm⟩
  · unfold Dict.WF Dict.keys statesOf
    simpa [List.map_map, Function.comp_def] using hd

theorem currentEffect_iff {es : List Entry} (hd : (es.map (·.id)).Nodup) (info : Json) (name : String) :
    currentEffect (statesOf es) info = .ok name ↔ Running info es name := by
  unfold currentEffect Running
  cases ho : item info "dynamic_light_effect_enable" with
  | error e =>
    constructor
    · intro h; cases h
    · rintro ⟨on, h, _⟩; rw [(item_iff _ _ _).2 h] at ho; cases ho
  | ok on =>
    have ho' := (item_iff _ _ _).1 ho
    simp only [bind, Except.bind, ho', Option.some.injEq, exists_eq_left']
    cases ht : on.truthy with
    | false =>
      simp only [Bool.false_eq_true, if_false, false_and, or_false, true_and]
      exact ⟨fun h => by cases h; rfl, fun h => by subst h; rfl⟩
    | true =>
      simp only [if_true, true_and, Bool.true_eq_false, false_and, false_or]
      cases hi : item info "dynamic_light_effect_id" with
      | error e =>
        constructor
        · intro h; cases h
        · rintro ⟨e, _, h, _⟩; rw [(item_iff _ _ _).2 h] at hi; cases hi
      | ok x =>
        have hi' := (item_iff _ _ _).1 hi
        simp only [hi', Option.some.injEq]
        cases x with
        | str id =>
          simp only [Json.str.injEq]
          cases hs : Dict.get? (statesOf es) id with
          | none =>
            constructor
            · intro h; cases h
            · rintro ⟨e, h1, rfl, _⟩
              have := (get?_statesOf hd e.id _).2 ⟨e, h1, rfl, rfl⟩
              rw [hs] at this
              cases this
          | some r =>
            obtain ⟨e, h1, rfl, rfl⟩ := (get?_statesOf hd id r).1 hs
            simp only [Dict.get?_set_self]
            constructor
            · intro h; cases h; exact ⟨e, h1, rfl, rfl⟩
            · rintro ⟨e', h1', h2', rfl⟩
              have := (get?_statesOf hd e.id _).2 ⟨e', h1', h2'.symm, rfl⟩
              rw [hs] at this
              have h3 := congrArg (Dict.get? · "scene_name") (Option.some.inj this)
              simp only [Dict.get?_set_self, Option.some.injEq, Json.str.injEq] at h3
              rw [h3]
        | _ =>
          constructor
          · intro h; cases h
          · rintro ⟨e, _, h, _⟩; cases h

theorem idsOf_get? {es : List Entry} (d : Dict String String) (name : String) :
    Dict.get? (es.foldl (fun d e => Dict.set d e.name e.id) d) name =
      match es.reverse.find? (fun e => e.name = name) with
      | some e => some e.id
      | none => Dict.get? d name := by
  induction es generalizing d with
  | nil => rfl
  | cons e es ih =>
    rw [List.foldl_cons, ih, List.reverse_cons, List.find?_append]
    cases hf : es.reverse.find? (fun e => e.name = name) with
    | some e' => rfl
    | none =>
      simp only [Option.none_or]
      by_cases he : e.name = name
      · subst he
        simp [Dict.get?_set_self]
      · rw [Dict.get?_set_ne _ _ he]
        simp [he]

theorem idsOf_none (es : List Entry) (name : String) :
    Dict.get? (idsOf es) name = none ↔ name ∉ es.map (·.name) := by
  unfold idsOf
  rw [idsOf_get?]
  cases hf : es.reverse.find? (fun e => e.name = name) with
  | some e =>
    have h1 := List.find?_some hf
    have h2 := List.mem_of_find?_eq_some hf
    simp only [reduceCtorEq, false_iff, Classical.not_not]
    exact List.mem_map.2 ⟨e, by simpa using h2, by simpa using h1⟩
  | none =>
    simp only [Dict.get?_nil, true_iff]
    intro hm
    obtain ⟨e, h1, h2⟩ := List.mem_map.1 hm
    have := List.find?_eq_none.1 hf e (by simpa using h1)
    simp [h2] at this

theorem idsOf_some {es : List Entry} {name id : String} (h : Dict.get? (idsOf es) name = some id) :
    ∃ e ∈ es, e.name = name ∧ e.id = id := by
  unfold idsOf at h
  rw [idsOf_get?] at h
  cases hf : es.reverse.find? (fun e => e.name = name) with
  | some e =>
    rw [hf] at h
    have h1 := List.find?_some hf
    have h2 := List.mem_of_find?_eq_some hf
    cases h
    exact ⟨e, by simpa using h2, by simpa using h1, rfl⟩
  | none => rw [hf] at h; cases h

theorem edited_dimmed {es : List Entry} (hd : (es.map (·.id)).Nodup) {e : Entry} (he : e ∈ es) {m : Bulb}
    (hm : m.states = statesOf es) (data b : Json) {steps : List (Json × Json × Json × Json)} (hs : Steps e.rule steps) :
    ∃ new, edited m data b (some e.id) = .ok new ∧ Dimmed e.rule new b ∧ Dict.get? new "scene_name" = some (.str e.name) := by
  have hg := (get?_statesOf hd e.id _).2 ⟨e, he, rfl, rfl⟩
  refine ⟨Dict.set (Dict.set e.rule "scene_name" (.str e.name)) "color_status_list"
    (.arr (steps.map fun s => .arr [b, s.2.1, s.2.2.1, s.2.2.2])), ?_, ⟨?_, ?_⟩, ?_⟩
  · unfold edited effectData
    simp only [bind, Except.bind, pure, Except.pure, hm, hg]
    have : item (.obj (Dict.set e.rule "scene_name" (.str e.name))) "color_status_list" =
        .ok (.arr (steps.map fun s => .arr [s.1, s.2.1, s.2.2.1, s.2.2.2])) := by
      rw [item_iff]
      show Dict.get? _ _ = _
      rw [Dict.get?_set_ne _ _ (by decide)]
      exact hs
    rw [this]
    simp only [iter]
    rw [show (steps.map fun s => Json.arr [s.1, s.2.1, s.2.2.1, s.2.2.2]).mapM (replaceBrightness b) =
      .ok (steps.map fun s => Json.arr [b, s.2.1, s.2.2.1, s.2.2.2]) from ?_]
    rw [getElem?_pairs]
    refine ⟨by simp, fun i x y hx hy => ?_⟩
    rw [List.getElem?_map] at hx hy
    cases hi : steps[i]? with
    | none => rw [hi] at hx; cases hx
    | some s =>
      rw [hi] at hx hy
      cases hx
      cases hy
      rfl
  · intro k h1 h2
    rw [Dict.get?_set_ne _ _ (Ne.symm h1), Dict.get?_set_ne _ _ (Ne.symm h2)]
  · intro steps' hs'
    unfold Steps at hs hs' ⊢
    rw [Dict.get?_set_self]
    rw [hs] at hs'
    simp only [Option.some.injEq, Json.arr.injEq] at hs' ⊢
    rw [List.map_map]
    have h1 : steps.length = steps'.length := by simpa using congrArg List.length hs'
    apply List.ext_getElem?
    intro i
    have h2 := congrArg (fun l : List Json => l[i]?) hs'
    simp only [List.getElem?_map] at h2 ⊢
    cases h3 : steps[i]? with
    | none =>
      rw [h3] at h2
      cases h4 : steps'[i]? with
      | none => rfl
      | some t => rw [h4] at h2; cases h2
    | some s =>
      rw [h3] at h2
      cases h4 : steps'[i]? with
      | none => rw [h4] at h2; cases h2
      | some t =>
        rw [h4] at h2
        simp only [Option.map_some, Option.some.injEq, Json.arr.injEq, List.cons.injEq, and_true] at h2 ⊢
        simp only [Function.comp]
        simp [h2.2.1, h2.2.2.1, h2.2.2.2]
  · rw [Dict.get?_set_ne _ _ (by decide), Dict.get?_set_self]

section
variable {σ : Type} (env : Env σ)

theorem bulbSetEffect_run {m : Bulb} {data info b : Json} {name id : String} {new : List (String × Json)}
    (hoff : name ≠ "Off") (hid : Dict.get? m.namesToId name = some id) (hnew : edited m data b (some id) = .ok new)
    {brightness : Option Json}
    (hb : bulbWanted m data info brightness = .ok b) (s : St σ) :
    bulbSetEffect env m data info name brightness s =
      match call env "edit_dynamic_light_effect_rule" (.obj new) s with
      | (.error ex, t) => (.error ex, t)
      | (.ok _, t) =>
        call env "set_dynamic_light_effect_rule_enable" (.obj [("enable", .bool true), ("id", .str id)]) t := by
  unfold bulbSetEffect
  rw [if_neg (show ¬ name = off from hoff)]
  simp only [hid, hb]
  unfold bulbSetBrightness
  simp only [bind_apply, lift_apply, hnew]
  cases call env "edit_dynamic_light_effect_rule" (.obj new) s with
  | mk r t => cases r <;> rfl

end

/-! ## Bulbs -/

/-- C64: `effect_list` is `Off` and the names of the effects the bulb reports, in its order; and `effect` is the name of the
one it says it runs, or `Off`. -/
theorem C64_bulb_effects (data info : Json) (es : List Entry) (h : Lists data es) :
    (∀ m, hook data info = .ok m → m.effectList = "Off" :: es.map (·.name)) ∧
    ∀ name, (∃ m, hook data info = .ok m ∧ m.effect = name) ↔ Running info es name := by
  rw [hook_eq h info]
  constructor
  · intro m hm
    cases hc : currentEffect (statesOf es) info with
    | error e => rw [hc] at hm; cases hm
    | ok n => rw [hc] at hm; cases hm; rfl
  · intro name
    rw [← currentEffect_iff h.distinct]
    cases hc : currentEffect (statesOf es) info with
    | error e =>
      constructor
      · rintro ⟨m, hm, _⟩; cases hm
      · intro h; cases h
    | ok n =>
      constructor
      · rintro ⟨m, hm, rfl⟩; cases hm; rfl
      · intro h; cases h; exact ⟨_, rfl, rfl⟩

section
variable {σ : Type} (env : Env σ)

/-- C64: a name that is not listed is refused, and nothing is sent. -/
theorem C64_bulb_refused (data info data' info' : Json) (es : List Entry) (h : Lists data es) (m : Bulb)
    (hm : hook data info = .ok m) (name : String) (hn : name ∉ m.effectList) (brightness : Option Json) (s : St σ) :
    bulbSetEffect env m data' info' name brightness s = (.error (.other "ValueError"), s) := by
  rw [hook_eq h info] at hm
  cases hc : currentEffect (statesOf es) info with
  | error e => rw [hc] at hm; cases hm
  | ok n =>
    rw [hc] at hm
    cases hm
    simp only [List.mem_cons, not_or] at hn
    unfold bulbSetEffect
    rw [if_neg hn.1]
    simp only [(idsOf_none es name).2 hn.2]
    rfl

/-- C64: `set_effect("Off")` makes exactly one request, which ends effects. -/
theorem C64_bulb_off (m : Bulb) (data info : Json) (brightness : Option Json) (s : St σ) :
    (bulbSetEffect env m data info "Off" brightness s).2.sent =
      s.sent ++ [(.obj [("set_dynamic_light_effect_rule_enable", .obj [("enable", .bool false)])], none)] := rfl

/-- C64: `set_effect(name, brightness=b)` for a listed name first gives one effect of that name the brightness `b`, keeping
everything else about it, and then, if the bulb accepted that, switches that effect on. -/
theorem C64_bulb_select (data info data' info' b : Json) (es : List Entry) (h : Lists data es) (m : Bulb)
    (hm : hook data info = .ok m) (name : String) (hn : name ∈ m.effectList) (hoff : name ≠ "Off")
    (hsteps : ∀ e ∈ es, ∃ steps, Steps e.rule steps) (s : St σ) :
    ∃ e ∈ es, e.name = name ∧ ∃ new, Dimmed e.rule new b ∧
      let edit := (Json.obj [("edit_dynamic_light_effect_rule", .obj new)], none)
      let enable := (Json.obj [("set_dynamic_light_effect_rule_enable", .obj [("enable", .bool true), ("id", .str e.id)])],
        none)
      let run := bulbSetEffect env m data' info' name (some b) s
      match env.query edit.1 none s.world with
      | (.error ex, w) => run = (.error ex, { world := w, sent := s.sent ++ [edit] })
      | (.ok _, w) => run = ((env.query enable.1 none w).1,
          { world := (env.query enable.1 none w).2, sent := s.sent ++ [edit, enable] }) := by
  rw [hook_eq h info] at hm
  cases hc : currentEffect (statesOf es) info with
  | error e => rw [hc] at hm; cases hm
  | ok n =>
    rw [hc] at hm
    have hm' := (Except.ok.inj hm).symm
    subst hm'
    have hn' : name ∈ es.map (·.name) := by
      rcases List.mem_cons.1 hn with h | h
      · exact absurd h hoff
      · exact h
    cases hid : Dict.get? (idsOf es) name with
    | none => exact absurd hn' ((idsOf_none es name).1 hid)
    | some id =>
      obtain ⟨e, he, hen, rfl⟩ := idsOf_some hid
      obtain ⟨steps, hs⟩ := hsteps e he
      obtain ⟨new, hnew, hdim, _⟩ := edited_dimmed h.distinct he (m := { states := statesOf es, effectList := off :: es.map (·.name), namesToId := idsOf es, effect := n }) rfl data' b hs
      refine ⟨e, he, hen, new, hdim, ?_⟩
      simp only
      cases hq : env.query (.obj [("edit_dynamic_light_effect_rule", .obj new)]) none s.world with
      | mk r w =>
        rw [bulbSetEffect_run env hoff hid hnew rfl]
        unfold call query
        simp only [hq]
        cases r with
        | error ex => rfl
        | ok a => simp [List.append_assoc]

end

section
variable {σ : Type} (env : Env σ)

/-- C64: without a brightness, `set_effect` uses the one the light reports: that of the running effect, or its own. -/
theorem C64_bulb_keeps_brightness (m : Bulb) (data info : Json) (name : String) (on b : Json)
    (ho : info.get? "dynamic_light_effect_enable" = some on)
    (hb : if on.truthy = true then bulbBrightness m data = .ok b else info.get? "brightness" = some b) (s : St σ) :
    bulbSetEffect env m data info name none s = bulbSetEffect env m data info name (some b) s := by
  have : moduleBrightness m data info = .ok b := by
    unfold moduleBrightness bulbActive
    rw [(item_iff _ _ _).2 ho]
    simp only [bind, Except.bind, pure, Except.pure]
    split
    · rename_i h; rw [if_pos h] at hb; exact hb
    · rename_i h; rw [if_neg h] at hb; exact (item_iff _ _ _).2 hb
  unfold bulbSetEffect
  simp only [bulbWanted, this]

end

theorem lamp_rules {l : Lamp} {es : List Entry} (h : Lists l.data es) : l.rules = es.map (·.rule) := by
  have h1 := h.rules
  simp only [Lamp.data, Json.get?, Dict.get?_cons, if_true, Option.some.injEq, Json.arr.injEq] at h1
  have h2 : ∀ (xs : List (List (String × Json))) (ys : List Entry),
      xs.map Json.obj = ys.map (fun e => Json.obj e.rule) → xs = ys.map (·.rule) := by
    intro xs
    induction xs with
    | nil => intro ys h; cases ys with
      | nil => rfl
      | cons y ys => cases h
    | cons x xs ih =>
      intro ys h
      cases ys with
      | nil => cases h
      | cons y ys =>
        simp only [List.map_cons, List.cons.injEq, Json.obj.injEq] at h ⊢
        exact ⟨h.1, ih ys h.2⟩
  exact h2 _ _ h1

/-- What the effects are after one was given another brightness. -/
def after (es : List Entry) (e : Entry) (name : String) (new : List (String × Json)) : List Entry :=
  es.map fun x => if x.id = e.id then { x with name := name, rule := new } else x

/-- C64: after `set_effect(name, brightness=b)`, a bulb that does what it is told runs an effect that was listed under that
name; the bulb now goes by the *decoded* name, so that the next update shows whatever the plain name reads as. -/
theorem C64_bulb_after (l : Lamp) (b : Json) (es : List Entry) (h : Lists l.data es) (m : Bulb)
    (hm : hook l.data l.info = .ok m) (name : String) (hn : name ∈ m.effectList) (hoff : name ≠ "Off")
    (hsteps : ∀ e ∈ es, ∃ steps, Steps e.rule steps) (sent : List (Json × Option Nat)) :
    let l' := (bulbSetEffect lampEnv m l.data l.info name (some b) ⟨l, sent⟩).2.world
    ∃ e ∈ es, e.name = name ∧ ∃ new, Dimmed e.rule new b ∧ Dict.get? new "scene_name" = some (.str name) ∧
      l'.on = true ∧ l'.current = e.id ∧ l'.brightness = l.brightness ∧
      l'.rules = (es.map fun x => if x.id = e.id then new else x.rule) ∧
      ∀ n, Shown e.id (.str name) n → Lists l'.data (after es e n new) := by
  intro l'
  rw [hook_eq h l.info] at hm
  cases hc : currentEffect (statesOf es) l.info with
  | error e => rw [hc] at hm; cases hm
  | ok n0 =>
    rw [hc] at hm
    have hm' := (Except.ok.inj hm).symm
    have hn' : name ∈ es.map (·.name) := by
      rw [hm'] at hn
      rcases List.mem_cons.1 hn with h | h
      · exact absurd h hoff
      · exact h
    have hst : m.states = statesOf es := by rw [hm']
    have hids : m.namesToId = idsOf es := by rw [hm']
    cases hid : Dict.get? (idsOf es) name with
    | none => exact absurd hn' ((idsOf_none es name).1 hid)
    | some id =>
      obtain ⟨e, he, rfl, rfl⟩ := idsOf_some hid
      obtain ⟨steps, hs⟩ := hsteps e he
      obtain ⟨new, hnew, hdim, hname⟩ := edited_dimmed h.distinct he hst l.data b hs
      have hnid : Dict.get? new "id" = some (.str e.id) := by
        rw [hdim.1 "id" (by decide) (by decide)]
        exact h.id e he
      have hrun := bulbSetEffect_run lampEnv hoff (by rw [hids]; exact hid) hnew (info := l.info)
        (brightness := some b) rfl ⟨l, sent⟩
      have hl' : l' = { l with
          rules := es.map fun x => if x.id = e.id then new else x.rule, on := true, current := e.id } := by
        show (bulbSetEffect lampEnv m l.data l.info e.name (some b) ⟨l, sent⟩).2.world = _
        rw [hrun]
        show Lamp.obey (Lamp.obey l (.obj [("edit_dynamic_light_effect_rule", .obj new)]))
          (.obj [("set_dynamic_light_effect_rule_enable", .obj [("enable", .bool true), ("id", .str e.id)])]) = _
        simp only [Lamp.obey]
        rw [lamp_rules h, List.map_map]
        congr 1
        apply List.map_congr_left
        intro x hx
        simp only [Function.comp, hnid, h.id x hx, Option.some.injEq, Json.str.injEq]
      refine ⟨e, he, rfl, new, hdim, hname, ?_, ?_, ?_, ?_, fun n hshown => ?_⟩
      · rw [hl']
      · rw [hl']
      · rw [hl']
      · rw [hl']
      · rw [hl']
        constructor
        · simp only [Lamp.data, Json.get?, Dict.get?_cons, if_true, after, List.map_map]
          congr 2
          apply List.map_congr_left
          intro x _
          simp only [Function.comp]
          split <;> rfl
        · unfold after
          rw [List.map_map]
          have : ((fun x => x.id) ∘ fun x : Entry => if x.id = e.id then { x with name := n, rule := new } else x) =
              fun x => x.id := by
            funext x
            simp only [Function.comp]
            split <;> rfl
          rw [this]
          exact h.distinct
        · intro x hx
          obtain ⟨y, hy, rfl⟩ := List.mem_map.1 hx
          split
          · rename_i hyid
            show Dict.get? new "id" = some (.str y.id)
            rw [hnid, hyid]
          · exact h.id y hy
        · intro x hx
          obtain ⟨y, hy, rfl⟩ := List.mem_map.1 hx
          split
          · rename_i hyid
            refine ⟨_, hname, ?_⟩
            show Shown y.id _ n
            rw [hyid]
            exact hshown
          · exact h.name y hy

theorem same_entry {es : List Entry} (hd : (es.map (·.id)).Nodup) {x y : Entry} (hx : x ∈ es) (hy : y ∈ es)
    (h : x.id = y.id) : x = y := by
  induction es with
  | nil => cases hx
  | cons e es ih =>
    simp only [List.map_cons, List.nodup_cons] at hd
    rcases List.mem_cons.1 hx with rfl | hx'
    · rcases List.mem_cons.1 hy with rfl | hy'
      · rfl
      · exact absurd (List.mem_map.2 ⟨y, hy', h.symm⟩) hd.1
    · rcases List.mem_cons.1 hy with rfl | hy'
      · exact absurd (List.mem_map.2 ⟨x, hx', h⟩) hd.1
      · exact ih hd.2 hx' hy'

/-- C64: after `set_effect(name, brightness=b)`, a bulb that does what it is told shows that effect with that brightness, and
the list is the same.  Partial: only for names that read as themselves, see `C64_bulb_name_lost`. -/
theorem C64_bulb_roundtrip_partial (l : Lamp) (b : Json) (es : List Entry) (h : Lists l.data es) (m : Bulb)
    (hm : hook l.data l.info = .ok m) (name : String) (hn : name ∈ m.effectList) (hoff : name ≠ "Off")
    (hplain : ∀ e ∈ es, e.name = name → Shown e.id (.str name) name)
    (hsteps : ∀ e ∈ es, ∃ s steps, Steps e.rule (s :: steps)) (sent : List (Json × Option Nat)) :
    let l' := (bulbSetEffect lampEnv m l.data l.info name (some b) ⟨l, sent⟩).2.world
    ∃ m', hook l'.data l'.info = .ok m' ∧ m'.effect = name ∧ m'.effectList = m.effectList ∧
      bulbBrightness m' l'.data = .ok b := by
  intro l'
  obtain ⟨e, he, hen, new, hdim, hname, hon, hcur, _, hrules, hlist⟩ := C64_bulb_after l b es h m hm name hn hoff
    (fun e he => by obtain ⟨s, steps, h⟩ := hsteps e he; exact ⟨_, h⟩) sent
  have hlist := hlist name (hplain e he hen)
  have hmem : ({ e with rule := new } : Entry) ∈ after es e name new := by
    refine List.mem_map.2 ⟨e, he, ?_⟩
    rw [if_pos rfl, hen]
  have hrun : Running l'.info (after es e name new) name := by
    refine ⟨.bool true, ?_, Or.inr ⟨rfl, { e with rule := new }, hmem, ?_, hen⟩⟩
    · show some (Json.bool l'.on) = _
      rw [hon]
    · show some (Json.str l'.current) = _
      rw [hcur]
  obtain ⟨m', hm', heff⟩ := ((C64_bulb_effects l'.data l'.info _ hlist).2 name).2 hrun
  refine ⟨m', hm', heff, ?_, ?_⟩
  · rw [(C64_bulb_effects l'.data l'.info _ hlist).1 m' hm', (C64_bulb_effects l.data l.info _ h).1 m hm]
    congr 1
    unfold after
    rw [List.map_map]
    apply List.map_congr_left
    intro x hx
    simp only [Function.comp]
    split
    · rename_i hxe
      rw [same_entry h.distinct hx he hxe]
      exact hen.symm
    · rfl
  · rw [hook_eq hlist] at hm'
    cases hc : currentEffect (statesOf (after es e name new)) l'.info with
    | error e => rw [hc] at hm'; cases hm'
    | ok n =>
      rw [hc] at hm'
      cases hm'
      obtain ⟨st, steps, hst⟩ := hsteps e he
      have hst' := hdim.2 _ hst
      unfold bulbBrightness effectData
      have hcurr : item l'.data "current_rule_id" = .ok (.str e.id) := by
        rw [item_iff]
        show some (Json.str l'.current) = _
        rw [hcur]
      rw [hcurr]
      have hg := (get?_statesOf hlist.distinct e.id _).2 ⟨_, hmem, rfl, rfl⟩
      simp only [bind, Except.bind, pure, Except.pure, hg]
      have : item (.obj (Dict.set new "scene_name" (.str e.name))) "color_status_list" =
          .ok (.arr (.arr [b, st.2.1, st.2.2.1, st.2.2.2] :: (steps.map fun s => (b, s.2)).map fun s => .arr [s.1, s.2.1, s.2.2.1, s.2.2.2])) := by
        rw [item_iff]
        show Dict.get? _ _ = _
        rw [Dict.get?_set_ne _ _ (by decide)]
        exact hst'
      rw [this]
      rfl

/-- C64: after `set_effect("Off")`, a bulb that does what it is told shows `Off`. -/
theorem C64_bulb_off_roundtrip (l : Lamp) (es : List Entry) (h : Lists l.data es) (m : Bulb) (brightness : Option Json)
    (sent : List (Json × Option Nat)) :
    let l' := (bulbSetEffect lampEnv m l.data l.info "Off" brightness ⟨l, sent⟩).2.world
    ∃ m', hook l'.data l'.info = .ok m' ∧ m'.effect = "Off" := by
  intro l'
  have hl : Lists l'.data es := ⟨h.rules, h.distinct, h.id, h.name⟩
  exact ((C64_bulb_effects l'.data l'.info es hl).2 "Off").2 ⟨.bool false, rfl, Or.inl ⟨rfl, rfl⟩⟩

/-- A bulb with one effect, of the given name. -/
def glowLamp (name : String) : Lamp :=
  { rules := [[("id", .str "L1"), ("scene_name", .str name), ("color_status_list", .arr [.arr [.num 50, .num 0, .num 0, .num 2700]])]],
    on := false, current := "", brightness := .num 50 }

/-- The effect, named `glow` by its user. -/
def glow : Entry :=
  { id := "L1", name := "glow",
    rule := [("id", .str "L1"), ("scene_name", .str "Z2xvdw=="), ("color_status_list", .arr [.arr [.num 50, .num 0, .num 0, .num 2700]])] }

theorem glow_means : Means (.str "Z2xvdw==") "glow" := by
  refine ⟨_, rfl, ?_, ?_⟩
  · decide +kernel
  · decide +kernel

theorem glow_lists : Lists (glowLamp "Z2xvdw==").data [glow] := by
  refine ⟨rfl, by simp, ?_, ?_⟩
  · intro e he
    rw [List.mem_singleton.1 he]
    rfl
  · intro e he
    rw [List.mem_singleton.1 he]
    exact ⟨_, rfl, Or.inr ⟨rfl, Or.inl glow_means⟩⟩

/-- Bytes that begin with a continuation byte are no UTF-8. -/
theorem not_utf8 (rest : Bytes) : fromUtf8 (0x82 :: rest) = none := by
  cases h : fromUtf8 (0x82 :: rest) with
  | none => rfl
  | some s =>
    exfalso
    have hu := utf8_of_fromUtf8 h
    have hne : s ≠ "" := by
      rintro rfl
      cases hu
    have hd := String.isSome_utf8DecodeChar?_zero hne
    have ha : s.toByteArray = ⟨(0x82 :: rest).toArray⟩ := by
      rw [← hu]
      rfl
    rw [ha, ← ByteArray.validateUTF8At_eq_isSome_utf8DecodeChar?] at hd
    have hf : ByteArray.validateUTF8At ⟨(0x82 :: rest).toArray⟩ 0 = false := by
      unfold ByteArray.validateUTF8At
      rw [dif_pos (by simp [ByteArray.size])]
      have h1 : ByteArray.utf8DecodeChar?.parseFirstByte 0x82 = .invalid := by rfl
      split
      · rfl
      · rename_i hx; exact absurd (h1.symm.trans hx) (by intro h; cases h)
      · rename_i hx; exact absurd (h1.symm.trans hx) (by intro h; cases h)
      · rename_i hx; exact absurd (h1.symm.trans hx) (by intro h; cases h)
      · rename_i hx; exact absurd (h1.symm.trans hx) (by intro h; cases h)
    rw [hf] at hd
    cases hd

/-- C64: the round trip fails for some names.  A bulb lists the effect its user named `glow`; the request that sets the
brightness of the effect hands the name back without base64, and from then on the update of the module fails. -/
theorem C64_bulb_name_lost (b : Int) (sent : List (Json × Option Nat)) :
    ∃ m, hook (glowLamp "Z2xvdw==").data (glowLamp "Z2xvdw==").info = .ok m ∧ m.effectList = ["Off", "glow"] ∧
      let l' := (bulbSetEffect lampEnv m (glowLamp "Z2xvdw==").data (glowLamp "Z2xvdw==").info "glow" (some (.num b))
        ⟨glowLamp "Z2xvdw==", sent⟩).2.world
      hook l'.data l'.info = .error (.other "UnicodeDecodeError") := by
  refine ⟨_, hook_eq glow_lists _, rfl, ?_⟩
  intro l'
  have hl' : l' = { rules := [[("id", .str "L1"), ("scene_name", .str "glow"), ("color_status_list", .arr [.arr [.num b, .num 0, .num 0, .num 2700]])]], on := true, current := "L1", brightness := .num 50 } := rfl
  rw [hl']
  have hu : unb64 (.str "glow") = .error (.other "UnicodeDecodeError") := by
    unfold unb64
    simp only
    rw [if_pos (by decide +kernel)]
    have : B64.decode "glow".toList = some [0x82, 0x5a, 0x30] := by decide +kernel
    simp only [this, not_utf8]
  unfold hook
  have h1 : item (Lamp.data { rules := [[("id", .str "L1"), ("scene_name", .str "glow"), ("color_status_list", .arr [.arr [.num b, .num 0, .num 0, .num 2700]])]], on := true, current := "L1", brightness := .num 50 }) "rule_list" =
    .ok (.arr [.obj [("id", .str "L1"), ("scene_name", .str "glow"), ("color_status_list", .arr [.arr [.num b, .num 0, .num 0, .num 2700]])]]) := rfl
  have h2 : byId [.obj [("id", .str "L1"), ("scene_name", .str "glow"), ("color_status_list", .arr [.arr [.num b, .num 0, .num 0, .num 2700]])]] =
    .ok [("L1", [("id", .str "L1"), ("scene_name", .str "glow"), ("color_status_list", .arr [.arr [.num b, .num 0, .num 0, .num 2700]])])] := rfl
  rw [h1]
  simp only [iter, bind, Except.bind, h2]
  have h3 : named ("L1", [("id", .str "L1"), ("scene_name", .str "glow"), ("color_status_list", .arr [.arr [.num b, .num 0, .num 0, .num 2700]])]) = .error (.other "UnicodeDecodeError") := by
    show (sceneName "L1" (.str "glow") >>= fun name => _) = _
    simp only [sceneName, hu]
    rfl
  rw [List.mapM_cons, h3]
  rfl

/-- C64: an update that fetches the list of effects only now and then misses new ones: the bulb says that it runs an effect
that the old list lacks, and the hook fails. -/
theorem C64_bulb_stale (data : Json) (es : List Entry) (h : Lists data es) (info : Json) (id : String)
    (hon : info.get? "dynamic_light_effect_enable" = some (.bool true))
    (hid : info.get? "dynamic_light_effect_id" = some (.str id)) (hnew : id ∉ es.map (·.id)) (m : Bulb) :
    hook data info ≠ .ok m := by
  intro hm
  obtain ⟨on, h1, h2 | ⟨_, e, he, h3, _⟩⟩ := ((C64_bulb_effects data info es h).2 m.effect).1 ⟨m, hm, rfl⟩
  · rw [hon] at h1
    cases h1
    cases h2.1
  · rw [hid] at h3
    cases h3
    exact hnew (List.mem_map.2 ⟨e, he, rfl⟩)

/-! ## Strips -/

/-- What is checked about a built-in effect. -/
def wellFormed (mapping : Dict String (List (String × Json))) (list : List (List (String × Json))) (n : String) : Bool :=
  match Dict.get? mapping n with
  | some d => decide (d ∈ list) && decide (Dict.get? d "name" = some (.str n)) &&
      decide (Dict.get? d "enable" = some (.num 1)) && decide (Dict.keys d).Nodup && n != "Off" && n != "" && (Dict.has d "brightness")
  | none => false

theorem wellFormed_iff {mapping : Dict String (List (String × Json))} {list : List (List (String × Json))} {n : String}
    (h : wellFormed mapping list n = true) : ∃ d ∈ list, Dict.get? mapping n = some d ∧
      Dict.get? d "name" = some (.str n) ∧ Dict.get? d "enable" = some (.num 1) ∧ Dict.WF d ∧ n ≠ "Off" ∧ n ≠ "" := by
  unfold wellFormed at h
  split at h
  · rename_i d hd
    simp only [Bool.and_eq_true, decide_eq_true_eq, bne_iff_ne] at h
    exact ⟨d, h.1.1.1.1.1.1, hd, h.1.1.1.1.1.2, h.1.1.1.1.2, h.1.1.1.2, h.1.1.2, h.1.2⟩
  · cases h

theorem smart_mapping : ∀ n ∈ Effects.Smart.names, wellFormed Effects.Smart.mapping Effects.Smart.list n = true := by
  decide +kernel

theorem legacy_mapping : ∀ n ∈ Effects.Legacy.names, wellFormed Effects.Legacy.mapping Effects.Legacy.list n = true := by
  decide +kernel

theorem smart_keys : Dict.keys Effects.Smart.mapping = Effects.Smart.names := by decide +kernel

theorem legacy_keys : Dict.keys Effects.Legacy.mapping = Effects.Legacy.names := by decide +kernel

theorem smart_mem {n : String} {d : List (String × Json)} (h : Dict.get? Effects.Smart.mapping n = some d) :
    n ∈ Effects.Smart.names := by
  rw [← smart_keys]
  exact Dict.has_iff.1 (by simp [Dict.has, h])

theorem legacy_mem {n : String} {d : List (String × Json)} (h : Dict.get? Effects.Legacy.mapping n = some d) :
    n ∈ Effects.Legacy.names := by
  rw [← legacy_keys]
  exact Dict.has_iff.1 (by simp [Dict.has, h])

/-- C64: the tables list every effect once, under its own name, switched on, and none is called `Off`. -/
theorem C64_tables :
    (∀ n ∈ Effects.Smart.names, ∃ d ∈ Effects.Smart.list, Dict.get? Effects.Smart.mapping n = some d ∧
      Dict.get? d "name" = some (.str n) ∧ Dict.get? d "enable" = some (.num 1)) ∧
    (∀ n ∈ Effects.Legacy.names, ∃ d ∈ Effects.Legacy.list, Dict.get? Effects.Legacy.mapping n = some d ∧
      Dict.get? d "name" = some (.str n) ∧ Dict.get? d "enable" = some (.num 1)) ∧
    stripList.Nodup ∧ legacyList.Nodup := by
  refine ⟨fun n hn => ?_, fun n hn => ?_, by decide +kernel, by decide +kernel⟩
  · obtain ⟨d, h1, h2, h3, h4, _⟩ := wellFormed_iff (smart_mapping n hn)
    exact ⟨d, h1, h2, h3, h4⟩
  · obtain ⟨d, h1, h2, h3, h4, _⟩ := wellFormed_iff (legacy_mapping n hn)
    exact ⟨d, h1, h2, h3, h4⟩

theorem get?_setOpt (d : List (String × Json)) (k z : String) (x : Option Json) :
    Dict.get? (setOpt d k x) z = if z = k then (x.or (Dict.get? d z)) else Dict.get? d z := by
  unfold setOpt
  cases x with
  | none => simp
  | some v =>
    simp only
    rw [Dict.get?_set]
    by_cases h : z = k
    · subst h; simp
    · simp [h, Ne.symm h]

theorem WF_setOpt {d : List (String × Json)} (h : Dict.WF d) (k : String) (x : Option Json) : Dict.WF (setOpt d k x) := by
  unfold setOpt
  cases x with
  | none => exact h
  | some v => exact Dict.WF_set h _ _

section
variable {σ : Type} (env : Env σ)

/-- C64: a name that is not listed is refused, and nothing is sent. -/
theorem C64_strip_refused (info : Json) (name : String) (hn : name ∉ stripList) (b t : Option Json) (s : St σ) :
    stripSetEffect env info name b t s = (.error (.other "ValueError"), s) := by
  unfold stripList at hn
  simp only [List.mem_cons, not_or] at hn
  unfold stripSetEffect
  rw [if_neg hn.1]
  cases h : Dict.get? Effects.Smart.mapping name with
  | some d => exact absurd (smart_mem h) hn.2
  | none => rfl

/-- C64: the same for a legacy strip. -/
theorem C64_legacy_refused (info : Json) (name : String) (hn : name ∉ legacyList) (b t : Option Json) (s : St σ) :
    legacySetEffect env info name b t s = (.error (.other "ValueError"), s) := by
  unfold legacyList at hn
  simp only [List.mem_cons, not_or] at hn
  unfold legacySetEffect
  rw [if_neg hn.1]
  cases h : Dict.get? Effects.Legacy.mapping name with
  | some d => exact absurd (legacy_mem h) hn.2
  | none => rfl

/-- C64: `set_effect` with a listed name makes one request, with the built-in effect of that name, except that the given
brightness and transition replace those of the effect. -/
theorem C64_strip_select (info : Json) (name : String) (hn : name ∈ Effects.Smart.names) (b : Json) (t : Option Json)
    (s : St σ) : ∃ d ∈ Effects.Smart.list, Dict.get? d "name" = some (.str name) ∧ ∃ new,
      stripSetEffect env info name (some b) t s = query env (.obj [("set_lighting_effect", .obj new)]) none s ∧
      Dict.get? new "brightness" = some b ∧ Dict.get? new "transition" = t.or (Dict.get? d "transition") ∧
      ∀ k, k ≠ "brightness" → k ≠ "transition" → Dict.get? new k = Dict.get? d k := by
  obtain ⟨d, h1, h2, h3, _, _, h4, _⟩ := wellFormed_iff (smart_mapping name hn)
  refine ⟨d, h1, h3, setOpt (setOpt d "brightness" (some b)) "transition" t, ?_, ?_, ?_, ?_⟩
  · unfold stripSetEffect
    rw [if_neg (show ¬ name = off from h4)]
    simp only [h2]
    rfl
  · rw [get?_setOpt, if_neg (by decide), get?_setOpt, if_pos rfl]
    rfl
  · rw [get?_setOpt, if_pos rfl, get?_setOpt, if_neg (by decide)]
  · intro k hk1 hk2
    rw [get?_setOpt, if_neg hk2, get?_setOpt, if_neg hk1]

/-- C64: the same for a legacy strip, which keeps the brightness of the effect when none is given. -/
theorem C64_legacy_select (info : Json) (name : String) (hn : name ∈ Effects.Legacy.names) (b t : Option Json)
    (s : St σ) : ∃ d ∈ Effects.Legacy.list, Dict.get? d "name" = some (.str name) ∧ ∃ new,
      legacySetEffect env info name b t s = legacyCall env new s ∧
      Dict.get? new "brightness" = b.or (Dict.get? d "brightness") ∧
      Dict.get? new "transition" = t.or (Dict.get? d "transition") ∧
      ∀ k, k ≠ "brightness" → k ≠ "transition" → Dict.get? new k = Dict.get? d k := by
  obtain ⟨d, h1, h2, h3, _, _, h4, _⟩ := wellFormed_iff (legacy_mapping name hn)
  refine ⟨d, h1, h3, setOpt (setOpt d "brightness" b) "transition" t, ?_, ?_, ?_, ?_⟩
  · unfold legacySetEffect
    rw [if_neg (show ¬ name = off from h4)]
    simp only [h2]
  · rw [get?_setOpt, if_neg (by decide), get?_setOpt, if_pos rfl]
  · rw [get?_setOpt, if_pos rfl, get?_setOpt, if_neg (by decide)]
  · intro k hk1 hk2
    rw [get?_setOpt, if_neg hk2, get?_setOpt, if_neg hk1]

/-- C64: without a brightness, a strip keeps the one it reports now, if that is not zero. -/
theorem C64_strip_keeps_brightness (info : Json) (name : String) (hn : name ∈ Effects.Smart.names) (b : Json)
    (hb : stripModuleBrightness info = .ok b) (t : Option Json) (s : St σ) :
    stripSetEffect env info name none t s =
      if b.truthy then stripSetEffect env info name (some b) t s
      else query env (.obj [("set_lighting_effect",
        .obj (setOpt ((Dict.get? Effects.Smart.mapping name).getD []) "transition" t))]) none s := by
  obtain ⟨d, h1, h2, h3, _, _, h4, _⟩ := wellFormed_iff (smart_mapping name hn)
  unfold stripSetEffect
  rw [if_neg (show ¬ name = off from h4), if_neg (show ¬ name = off from h4)]
  simp only [h2, stripWanted, hb, bind, Except.bind, pure, Except.pure]
  cases ht : b.truthy <;> rfl

end

theorem stripEffect_of {info : Json} {eff : List (String × Json)} (h : info.get? "lighting_effect" = some (.obj eff))
    {n : Json} (hn : Dict.get? eff "name" = some n) {on : Json} (ho : Dict.get? eff "enable" = some on) :
    stripEffect info = if on.truthy then
      if isIn n stripList then .ok n
      else (item (.obj eff) "custom").bind fun c => if c.truthy then .ok (orCustom n) else .ok (.str off)
      else .ok (.str off) := by
  unfold stripEffect
  rw [(item_iff _ _ _).2 h]
  simp only [bind, Except.bind]
  rw [(item_iff _ _ _).2 (show (Json.obj eff).get? "name" = some n from hn)]
  simp only
  rw [(item_iff _ _ _).2 (show (Json.obj eff).get? "enable" = some on from ho)]
  rfl

theorem stripActive_of {info : Json} {eff : List (String × Json)} (h : info.get? "lighting_effect" = some (.obj eff))
    {n : Json} (hn : Dict.get? eff "name" = some n) {on : Json} (ho : Dict.get? eff "enable" = some on) :
    stripActive info = .ok (on.truthy && isIn n stripList) := by
  unfold stripActive
  rw [(item_iff _ _ _).2 h]
  simp only [bind, Except.bind]
  rw [(item_iff _ _ _).2 (show (Json.obj eff).get? "name" = some n from hn)]
  rw [(item_iff _ _ _).2 (show (Json.obj eff).get? "enable" = some on from ho)]
  simp only
  cases on.truthy <;> rfl

theorem legacyEffect_of {info : Json} {eff : List (String × Json)}
    (h : info.get? "lighting_effect_state" = some (.obj eff))
    {n : Json} (hn : Dict.get? eff "name" = some n) {on : Json} (ho : Dict.get? eff "enable" = some on) :
    legacyEffect info = .ok (if on.truthy then orCustom n else .str off) := by
  unfold legacyEffect
  rw [(item_iff _ _ _).2 h]
  simp only [bind, Except.bind]
  rw [(item_iff _ _ _).2 (show (Json.obj eff).get? "name" = some n from hn)]
  simp only
  rw [(item_iff _ _ _).2 (show (Json.obj eff).get? "enable" = some on from ho)]
  simp only
  cases on.truthy <;> rfl

/-- C64: what a strip reports as `effect` and `is_active`: the name of the running effect if it is listed or custom
(`Custom` without a name), `Off` otherwise. -/
theorem C64_strip_effect (info : Json) (eff : List (String × Json)) (h : info.get? "lighting_effect" = some (.obj eff))
    (n : String) (hn : Dict.get? eff "name" = some (.str n)) (on c : Json) (ho : Dict.get? eff "enable" = some on)
    (hc : Dict.get? eff "custom" = some c) :
    stripEffect info = .ok (.str (if on.truthy = true ∧ n ∈ stripList then n
      else if on.truthy = true ∧ c.truthy = true then (if n = "" then "Custom" else n) else "Off")) ∧
    stripActive info = .ok (decide (on.truthy = true ∧ n ∈ stripList)) := by
  rw [stripEffect_of h hn ho, stripActive_of h hn ho]
  have hi : isIn (.str n) stripList = decide (n ∈ stripList) := by
    unfold isIn
    simp [List.contains_eq_mem]
  rw [hi, (item_iff _ _ _).2 (show (Json.obj eff).get? "custom" = some c from hc)]
  constructor
  · cases ht : on.truthy with
    | false => simp [off]
    | true =>
      simp only [if_true, true_and, decide_eq_true_eq]
      by_cases hm : n ∈ stripList
      · rw [if_pos hm, if_pos hm]
      · rw [if_neg hm, if_neg hm]
        simp only [Except.bind]
        cases hct : c.truthy with
        | false => rfl
        | true =>
          simp only [if_true, orCustom, Json.truthy]
          by_cases hne : n = ""
          · subst hne; rfl
          · simp [hne]
  · cases on.truthy <;> simp

/-- C64: a custom effect that runs is reported as the effect, and at the same time as not active. -/
theorem C64_strip_custom_inactive (info : Json) (eff : List (String × Json))
    (h : info.get? "lighting_effect" = some (.obj eff)) (n : String) (hl : n ∉ stripList) (hne : n ≠ "")
    (hn : Dict.get? eff "name" = some (.str n)) (ho : Dict.get? eff "enable" = some (.num 1))
    (hc : Dict.get? eff "custom" = some (.num 1)) :
    stripEffect info = .ok (.str n) ∧ stripActive info = .ok false := by
  obtain ⟨h1, h2⟩ := C64_strip_effect info eff h n hn (.num 1) (.num 1) ho hc
  rw [h1, h2]
  simp [hl, hne, Json.truthy]

/-- C64: after `set_effect(name, brightness=b)`, a strip that does what it is told reports that effect as active, with that
brightness; whatever it ran before. -/
theorem C64_strip_roundtrip (info info' : Json) (name : String) (hn : name ∈ Effects.Smart.names) (b : Json)
    (t : Option Json) (effect : List (String × Json)) (sent : List (Json × Option Nat))
    (h : info'.get? "lighting_effect" =
      some (.obj (stripSetEffect stripEnv info name (some b) t ⟨effect, sent⟩).2.world)) :
    stripEffect info' = .ok (.str name) ∧ stripActive info' = .ok true ∧ stripBrightness info' = .ok b := by
  obtain ⟨d, h1, h2, h3, h4, h5, h6, _⟩ := wellFormed_iff (smart_mapping name hn)
  have hw : (stripSetEffect stripEnv info name (some b) t ⟨effect, sent⟩).2.world =
      Dict.update effect (setOpt (setOpt d "brightness" (some b)) "transition" t) := by
    unfold stripSetEffect
    rw [if_neg (show ¬ name = off from h6)]
    simp only [h2]
    rfl
  rw [hw] at h
  have hwf := WF_setOpt (WF_setOpt h5 "brightness" (some b)) "transition" t
  have hname : Dict.get? (Dict.update effect (setOpt (setOpt d "brightness" (some b)) "transition" t)) "name" =
      some (.str name) := by
    rw [Dict.get?_update hwf, get?_setOpt, if_neg (by decide), get?_setOpt, if_neg (by decide), h3]
    rfl
  have hon : Dict.get? (Dict.update effect (setOpt (setOpt d "brightness" (some b)) "transition" t)) "enable" =
      some (.num 1) := by
    rw [Dict.get?_update hwf, get?_setOpt, if_neg (by decide), get?_setOpt, if_neg (by decide), h4]
    rfl
  have hin : isIn (.str name) stripList = true := by
    simp only [isIn, List.contains_eq_mem, decide_eq_true_eq]
    exact List.mem_cons_of_mem _ hn
  refine ⟨?_, ?_, ?_⟩
  · rw [stripEffect_of h hname hon, hin]
    rfl
  · rw [stripActive_of h hname hon, hin]
    rfl
  · unfold stripBrightness
    rw [(item_iff _ _ _).2 h]
    simp only [bind, Except.bind]
    rw [item_iff]
    show Dict.get? _ _ = _
    rw [Dict.get?_update hwf, get?_setOpt, if_neg (by decide), get?_setOpt, if_pos rfl]
    rfl

theorem offDict_enable (mapping : Dict String (List (String × Json))) (aurora : List (String × Json)) (current : Json) :
    Dict.get? (offDict mapping aurora current) "enable" = some (.num 0) := by
  unfold offDict
  exact Dict.get?_set_self _ _ _

/-- The request that switches off is a built-in effect but for `enable`. -/
def OffCases (list : List (List (String × Json))) (mapping : Dict String (List (String × Json)))
    (aurora : List (String × Json)) (current : Json) : Prop :=
  ∃ n d, d ∈ list ∧ Dict.get? d "name" = some (.str n) ∧ Dict.WF (offDict mapping aurora current) ∧
    (∀ k, k ≠ "enable" → Dict.get? (offDict mapping aurora current) k = Dict.get? d k) ∧
    (current = .str n ∨ (∀ s, current = .str s → Dict.get? mapping s = none) ∧ n = "Aurora")

theorem offDict_cases (list : List (List (String × Json))) (mapping : Dict String (List (String × Json)))
    (aurora : List (String × Json)) (hall : ∀ n d, Dict.get? mapping n = some d → wellFormed mapping list n = true)
    (ha : wellFormed mapping list "Aurora" = true) (hau : Dict.get? mapping "Aurora" = some aurora) (current : Json) :
    OffCases list mapping aurora current := by
  have key : ∀ n, wellFormed mapping list n = true → Dict.get? mapping n = some ((Dict.get? mapping n).getD aurora) →
      ∀ e, e = (Dict.get? mapping n).getD aurora → e ∈ list ∧ Dict.get? e "name" = some (.str n) ∧ Dict.WF e := by
    intro n hn hd e he
    obtain ⟨d, h1, h2, h3, _, h5, _⟩ := wellFormed_iff hn
    rw [h2] at he
    cases he
    exact ⟨h1, h3, h5⟩
  have aur : ∀ c, (∀ s, c = Json.str s → Dict.get? mapping s = none) → offDict mapping aurora c = Dict.set aurora "enable" (.num 0) := by
    intro c hc
    unfold offDict
    cases c with
    | str s => simp [hc s rfl]
    | _ => rfl
  by_cases hex : ∃ s d, current = .str s ∧ Dict.get? mapping s = some d
  · obtain ⟨s, d, rfl, hd⟩ := hex
    obtain ⟨h1, h2, h3⟩ := key s (hall s d hd) (by rw [hd]; rfl) d (by rw [hd]; rfl)
    refine ⟨s, d, h1, h2, ?_, fun k hk => ?_, Or.inl rfl⟩
    · unfold offDict
      simp only [hd]
      exact Dict.WF_set h3 _ _
    · unfold offDict
      simp only [hd]
      exact Dict.get?_set_ne _ _ (Ne.symm hk)
  · have hnone : ∀ s, current = .str s → Dict.get? mapping s = none := by
      intro s hs
      cases hd : Dict.get? mapping s with
      | none => rfl
      | some d => exact absurd ⟨s, d, hs, hd⟩ hex
    obtain ⟨h1, h2, h3⟩ := key "Aurora" ha (by rw [hau]; rfl) aurora (by rw [hau]; rfl)
    refine ⟨"Aurora", aurora, h1, h2, ?_, fun k hk => ?_, Or.inr ⟨hnone, rfl⟩⟩
    · rw [aur _ hnone]; exact Dict.WF_set h3 _ _
    · rw [aur _ hnone]; exact Dict.get?_set_ne _ _ (Ne.symm hk)

theorem smart_off_cases (current : Json) :
    OffCases Effects.Smart.list Effects.Smart.mapping Effects.Smart.aurora current :=
  offDict_cases Effects.Smart.list Effects.Smart.mapping Effects.Smart.aurora
  (fun _ _ h => smart_mapping _ (smart_mem h)) (by decide +kernel) (by decide +kernel) current

theorem legacy_off_cases (current : Json) :
    OffCases Effects.Legacy.list Effects.Legacy.mapping Effects.Legacy.aurora current :=
  offDict_cases Effects.Legacy.list Effects.Legacy.mapping Effects.Legacy.aurora
  (fun _ _ h => legacy_mapping _ (legacy_mem h)) (by decide +kernel) (by decide +kernel) current

section
variable {σ : Type} (env : Env σ)

/-- C64: `set_effect("Off")` makes one request: the built-in effect that runs, or else Aurora, with `enable` 0. -/
theorem C64_strip_off (info current : Json) (hc : stripEffect info = .ok current) (b t : Option Json) (s : St σ) :
    ∃ n d new, d ∈ Effects.Smart.list ∧ Dict.get? d "name" = some (.str n) ∧
      (current = .str n ∨ (∀ x, current = .str x → x ∉ Effects.Smart.names) ∧ n = "Aurora") ∧
      stripSetEffect env info "Off" b t s = query env (.obj [("set_lighting_effect", .obj new)]) none s ∧
      Dict.get? new "enable" = some (.num 0) ∧ ∀ k, k ≠ "enable" → Dict.get? new k = Dict.get? d k := by
  obtain ⟨n, d, h1, h2, h3, h4, h5⟩ := smart_off_cases current
  refine ⟨n, d, _, h1, h2, ?_, ?_, offDict_enable _ _ _, h4⟩
  · rcases h5 with h5 | ⟨h5, h6⟩
    · exact Or.inl h5
    · refine Or.inr ⟨fun x hx hm => ?_, h6⟩
      have := h5 x hx
      rw [Dict.get?_eq_none_iff, smart_keys] at this
      exact this hm
  · unfold stripSetEffect
    rw [if_pos (show "Off" = off from rfl), hc]
    rfl

/-- C64: the same for a legacy strip. -/
theorem C64_legacy_off (info current : Json) (hc : legacyEffect info = .ok current) (b t : Option Json) (s : St σ) :
    ∃ n d new, d ∈ Effects.Legacy.list ∧ Dict.get? d "name" = some (.str n) ∧
      (current = .str n ∨ (∀ x, current = .str x → x ∉ Effects.Legacy.names) ∧ n = "Aurora") ∧
      legacySetEffect env info "Off" b t s = legacyCall env new s ∧
      Dict.get? new "enable" = some (.num 0) ∧ ∀ k, k ≠ "enable" → Dict.get? new k = Dict.get? d k := by
  obtain ⟨n, d, h1, h2, h3, h4, h5⟩ := legacy_off_cases current
  refine ⟨n, d, _, h1, h2, ?_, ?_, offDict_enable _ _ _, h4⟩
  · rcases h5 with h5 | ⟨h5, h6⟩
    · exact Or.inl h5
    · refine Or.inr ⟨fun x hx hm => ?_, h6⟩
      have := h5 x hx
      rw [Dict.get?_eq_none_iff, legacy_keys] at this
      exact this hm
  · unfold legacySetEffect
    rw [if_pos (show "Off" = off from rfl), hc]
    rfl

end

/-- C64: after `set_effect("Off")`, or after `set_brightness(0)` on the effect, a strip that does what it is told reports
`Off`. -/
theorem C64_strip_off_roundtrip (info info' current : Json) (hc : stripEffect info = .ok current) (b t : Option Json)
    (effect : List (String × Json)) (sent : List (Json × Option Nat))
    (h : info'.get? "lighting_effect" = some (.obj (stripSetEffect stripEnv info "Off" b t ⟨effect, sent⟩).2.world)) :
    stripEffect info' = .ok (.str "Off") ∧ stripActive info' = .ok false ∧
    ∀ x, x ≤ 0 → stripSetBrightness stripEnv info x = stripSetEffect stripEnv info "Off" none none := by
  obtain ⟨n, d, h1, h2, h3, h4, h5⟩ := smart_off_cases current
  have hw : (stripSetEffect stripEnv info "Off" b t ⟨effect, sent⟩).2.world =
      Dict.update effect (offDict Effects.Smart.mapping Effects.Smart.aurora current) := by
    unfold stripSetEffect
    rw [if_pos (show "Off" = off from rfl), hc]
    rfl
  rw [hw] at h
  have hname : Dict.get? (Dict.update effect (offDict Effects.Smart.mapping Effects.Smart.aurora current)) "name" =
      some (.str n) := by
    rw [Dict.get?_update h3, h4 "name" (by decide), h2]
    rfl
  have hon : Dict.get? (Dict.update effect (offDict Effects.Smart.mapping Effects.Smart.aurora current)) "enable" =
      some (.num 0) := by
    rw [Dict.get?_update h3, offDict_enable]
    rfl
  refine ⟨?_, ?_, fun x hx => ?_⟩
  · rw [stripEffect_of h hname hon]; rfl
  · rw [stripActive_of h hname hon]; rfl
  · unfold stripSetBrightness
    rw [if_pos hx]
    rfl

/-- C64: `set_brightness(b)` on the effect, with `b` positive, keeps the effect running. -/
theorem C64_strip_brightness (info info' : Json) (effect : List (String × Json))
    (he : info.get? "lighting_effect" = some (.obj effect)) (n on : Json) (hn : Dict.get? effect "name" = some n)
    (ho : Dict.get? effect "enable" = some on) (b : Int) (hb : 0 < b) (sent : List (Json × Option Nat))
    (h : info'.get? "lighting_effect" = some (.obj (stripSetBrightness stripEnv info b ⟨effect, sent⟩).2.world)) :
    stripEffect info' = stripEffect info ∧ stripActive info' = stripActive info ∧ stripBrightness info' = .ok (.num b) := by
  have hw : (stripSetBrightness stripEnv info b ⟨effect, sent⟩).2.world =
      Dict.update effect [("brightness", .num b), ("bAdjusted", .bool true)] := by
    unfold stripSetBrightness
    rw [if_neg (by omega)]
    rfl
  rw [hw] at h
  have hwf : Dict.WF ([("brightness", .num b), ("bAdjusted", .bool true)] : List (String × Json)) := by
    unfold Dict.WF Dict.keys
    simp
  have hget : ∀ k, k ≠ "brightness" → k ≠ "bAdjusted" →
      Dict.get? (Dict.update effect [("brightness", .num b), ("bAdjusted", .bool true)]) k = Dict.get? effect k := by
    intro k h1 h2
    rw [Dict.get?_update hwf]
    simp [Dict.get?_cons, Ne.symm h1, Ne.symm h2]
  have hname := (hget "name" (by decide) (by decide)).trans hn
  have hon := (hget "enable" (by decide) (by decide)).trans ho
  refine ⟨?_, ?_, ?_⟩
  · rw [stripEffect_of h hname hon, stripEffect_of he hn ho]
    have : item (.obj (Dict.update effect [("brightness", .num b), ("bAdjusted", .bool true)])) "custom" =
        item (.obj effect) "custom" := by
      unfold item
      simp only [hget "custom" (by decide) (by decide)]
    rw [this]
  · rw [stripActive_of h hname hon, stripActive_of he hn ho]
  · unfold stripBrightness
    rw [(item_iff _ _ _).2 h]
    simp only [bind, Except.bind]
    rw [item_iff]
    show Dict.get? _ _ = _
    rw [Dict.get?_update hwf]
    rfl

/-- C64: after `set_effect(name)`, a legacy strip that does what it is told reports that effect; after `Off`, `Off`. -/
theorem C64_legacy_roundtrip (info info' current : Json) (hc : legacyEffect info = .ok current) (name : String)
    (hn : name ∈ legacyList) (b t : Option Json) (effect : List (String × Json)) (sent : List (Json × Option Nat))
    (h : info'.get? "lighting_effect_state" =
      some (.obj (legacySetEffect legacyStripEnv info name b t ⟨effect, sent⟩).2.world)) :
    legacyEffect info' = .ok (.str name) := by
  by_cases hoff : name = "Off"
  · subst hoff
    obtain ⟨n, d, h1, h2, h3, h4, h5⟩ := legacy_off_cases current
    have hw : (legacySetEffect legacyStripEnv info "Off" b t ⟨effect, sent⟩).2.world =
        Dict.update effect (offDict Effects.Legacy.mapping Effects.Legacy.aurora current) := by
      unfold legacySetEffect
      rw [if_pos (show "Off" = off from rfl), hc]
      rfl
    rw [hw] at h
    have hname : Dict.get? (Dict.update effect (offDict Effects.Legacy.mapping Effects.Legacy.aurora current)) "name" =
        some (.str n) := by
      rw [Dict.get?_update h3, h4 "name" (by decide), h2]
      rfl
    have hon : Dict.get? (Dict.update effect (offDict Effects.Legacy.mapping Effects.Legacy.aurora current)) "enable" =
        some (.num 0) := by
      rw [Dict.get?_update h3, offDict_enable]
      rfl
    rw [legacyEffect_of h hname hon]
    rfl
  · have hm : name ∈ Effects.Legacy.names := (List.mem_cons.1 hn).resolve_left hoff
    obtain ⟨d, h1, h2, h3, h4, h5, h6, h7⟩ := wellFormed_iff (legacy_mapping name hm)
    have hw : (legacySetEffect legacyStripEnv info name b t ⟨effect, sent⟩).2.world =
        Dict.update effect (setOpt (setOpt d "brightness" b) "transition" t) := by
      unfold legacySetEffect
      rw [if_neg (show ¬ name = off from h6)]
      simp only [h2]
      rfl
    rw [hw] at h
    have hwf := WF_setOpt (WF_setOpt h5 "brightness" b) "transition" t
    have hname : Dict.get? (Dict.update effect (setOpt (setOpt d "brightness" b) "transition" t)) "name" =
        some (.str name) := by
      rw [Dict.get?_update hwf, get?_setOpt, if_neg (by decide), get?_setOpt, if_neg (by decide), h3]
      rfl
    have hon : Dict.get? (Dict.update effect (setOpt (setOpt d "brightness" b) "transition" t)) "enable" =
        some (.num 1) := by
      rw [Dict.get?_update hwf, get?_setOpt, if_neg (by decide), get?_setOpt, if_neg (by decide), h4]
      rfl
    rw [legacyEffect_of h hname hon]
    simp [Json.truthy, orCustom, h7]

/-! ## Witnesses -/

example : (hook (glowLamp "").data (glowLamp "").info).map (·.effectList) = .ok ["Off", "Party"] := by decide +kernel
example : Shown "L1" (.str "Party") "Party" := Or.inr ⟨rfl, Or.inr ⟨rfl, by decide +kernel, by decide +kernel⟩⟩
example : "Bubbling Cauldron" ∈ Effects.Smart.names ∧ "Bubbling Cauldron" ∈ Effects.Legacy.names := by decide +kernel
example : "Bubbling" ∉ stripList := by decide +kernel
example : stripEffect (.obj [("lighting_effect", .obj [("name", .str "mine"), ("enable", .num 1), ("custom", .num 1)])]) =
    .ok (.str "mine") := by decide +kernel

end Kasa.LightEffects
