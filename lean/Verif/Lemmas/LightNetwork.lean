import Verif.Spec.LightNetwork
import Verif.Lemmas.ReadBack
import Verif.Props.LightReading
import Verif.Props.ReadBack
/-!
# Lights over a network
-/

namespace Kasa.LightNetwork
open EndToEnd hiding Op Explains
open PyM Lights LightReading LightReadingSpec LightCalls

/-! ## Values on the way -/

/-- A value that is sent and read as it is. -/
def Plain : PyV → Prop
  | .num (.int _) => True
  | .num (.bool _) => True
  | _ => False

def AllPlain (params : Info) : Prop := ∀ kv ∈ params, Plain kv.2

theorem ofMembers_toMembers {params : Info} (h : AllPlain params) : ofMembers (toMembers params) = params := by
  induction params with
  | nil => rfl
  | cons kv l ih =>
    obtain ⟨k, v⟩ := kv
    rw [toMembers, ofMembers, ih fun kv h' => h kv (.tail _ h')]
    have := h _ (.head _)
    simp only at this
    unfold Plain at this
    split at this <;> simp_all [toJson, numJson, ofJson]

theorem toMembers_keys (params : Info) : Dict.keys (toMembers params) = Dict.keys params := by
  induction params with
  | nil => rfl
  | cons kv l ih => rw [toMembers, Dict.keys_cons, ih]; rfl

theorem toMembers_proper {params : Info} (hw : Dict.WF params) (h : AllPlain params) : JsonText.Proper (.obj (toMembers params)) := by
  rw [JsonText.Proper]
  refine ⟨by unfold Dict.WF; rw [toMembers_keys]; exact hw, ?_⟩
  clear hw
  induction params with
  | nil => simp [toMembers, JsonText.ProperKvs]
  | cons kv l ih =>
    rw [toMembers, JsonText.ProperKvs]
    refine ⟨?_, ih fun kv h' => h kv (.tail _ h')⟩
    have := h _ (.head _)
    unfold Plain at this
    split at this <;> simp_all [toJson, numJson, JsonText.Proper]

theorem get?_ofMembers (d : Dict String Json) (k : String) : Dict.get? (ofMembers d) k = (Dict.get? d k).map ofJson := by
  induction d with
  | nil => rfl
  | cons kv l ih =>
    obtain ⟨k', v⟩ := kv
    rw [ofMembers, Dict.get?_cons, Dict.get?_cons, ih]
    split <;> rfl

/-- What is stored, as it is read. -/
theorem stored_read {keys : List String} {params : Info} {before after : Dict String Json} (hp : AllPlain params) (hw : Dict.WF params)
    (h : Stored keys (toMembers params) before after) (k : String) (hk : k ∈ keys) :
    Dict.get? (ofMembers after) k = Dict.get? (Dict.update (ofMembers before) params) k := by
  rw [get?_ofMembers, h k hk, Dict.get?_update hw, get?_ofMembers]
  have : Dict.get? params k = (Dict.get? (toMembers params) k).map ofJson := by
    rw [← get?_ofMembers, ofMembers_toMembers hp]
  rw [this]
  cases Dict.get? (toMembers params) k <;> rfl

/-! ## What is sent -/

theorem allPlain_set {d : Info} (h : AllPlain d) (k : String) {v : PyV} (hv : Plain v) : AllPlain (Dict.set d k v) := by
  induction d with
  | nil => intro kv hkv; cases hkv with
    | head => exact hv
    | tail _ h => cases h
  | cons kv l ih =>
    obtain ⟨k', v'⟩ := kv
    simp only [Dict.set]
    split
    · intro kv hkv
      cases hkv with
      | head => exact hv
      | tail _ h' => exact h _ (.tail _ h')
    · intro kv hkv
      cases hkv with
      | head => exact h _ (.head _)
      | tail _ h' => exact ih (fun kv h' => h kv (.tail _ h')) kv h'

theorem allPlain_erase {d : Info} (h : AllPlain d) (k : String) : AllPlain (Dict.erase d k) :=
  fun kv hkv => h kv ((Dict.erase_sublist d k).mem hkv)

/-- What an operation sends. -/
theorem smartSend_plain {l : Light} {op : Op} {c : Command} (he : l.effect = none) (h : smartSend l op = .ok c) :
    ∃ params, c = setInfo params ∧ Dict.WF params ∧ AllPlain params := by
  cases op with
  | brightness x t =>
    refine ⟨_, smartBrightness_cases he h, ?_⟩
    split <;> exact ⟨by simp [Dict.WF, Dict.keys], by simp [AllPlain, Plain]⟩
  | hsv hue sat v t =>
    refine ⟨_, smartHsv_cases h, ?_⟩
    cases v <;> exact ⟨by simp [Dict.WF, Dict.keys], by simp [AllPlain, Plain]⟩
  | colorTemp x v t =>
    refine ⟨_, smartColorTemp_cases h, ?_⟩
    cases v with
    | none => exact ⟨by simp [Dict.WF, Dict.keys], by simp [AllPlain, Plain]⟩
    | some y =>
      by_cases hy : y = 0
      · subst hy
        exact ⟨by simp [Dict.WF, Dict.keys, Num.truthy], by simp [AllPlain, Plain, Num.truthy]⟩
      · exact ⟨by simp [Dict.WF, Dict.keys, Num.truthy, hy], by simp [AllPlain, Plain, Num.truthy, hy]⟩
  | state s =>
    cases h
    refine ⟨_, rfl, ?_⟩
    obtain ⟨params, h1, h2, -⟩ := smartState_params s.toState
    have h1' : setInfo _ = setInfo params := h1
    refine ⟨by rw [Command.mk.inj h1' |>.2.2]; exact h2, ?_⟩
    have hd : AllPlain (stateDict s.toState ++ (match s.toState.transition with | some t => [("transition", .num t)] | none => [])) := by
      obtain ⟨on, br, hue, sat, temp, tr⟩ := s
      cases on <;> cases br <;> cases hue <;> cases sat <;> cases temp <;> cases tr <;>
        simp [AllPlain, Plain, stateDict, Setting.toState]
    split
    · exact allPlain_set (allPlain_erase hd _) _ trivial
    · split
      · exact allPlain_set (allPlain_erase hd _) _ trivial
      · exact allPlain_set hd _ trivial
  | switch on t =>
    cases h
    exact ⟨_, rfl, by simp [Dict.WF, Dict.keys], by simp [AllPlain, Plain]⟩

/-! ## One operation -/

section
variable {σ α : Type} {t : Smart.Transport σ} {p : Program α} {uuid : String} {Good : σ → Prop} {state : σ → α}
variable {Rs : Smart.Request → Prop} {ans : α → Smart.Request → SmartSpec.Answer} {info : α → Dict String Json} {l : Light}
variable {Takes : Dict String Json → Prop}

/-- The device holds the light. -/
def Holds (info : α → Dict String Json) (a : α) (L : Lamp) : Prop := SmartHolds (ofMembers (info a)) L

theorem perform_step (F : Faithful t p uuid Good state) (hl : IsLight p uuid Rs ans info Takes) (he : l.effect = none) (op : Op)
    (ht : ∀ c, smartSend l op = .ok c → Takes (toMembers c.params)) (s : Smart.St σ) (hg : Good s.world) (L : Lamp) (hL : Holds info (state s.world) L) :
    let out := perform t (smartSend l op) s
    Good out.2.world ∧
      ((∃ r, out.1 = .ok r ∧ Holds info (state out.2.world) (L.smart op)) ∨
       (∃ e, out.1 = .error e ∧ (Holds info (state out.2.world) L ∨
          (∃ c, smartSend l op = .ok c) ∧ Holds info (state out.2.world) (L.smart op)))) := by
  intro out
  cases hs : smartSend l op with
  | error e =>
    have : out = (.error e, s) := by
      show perform t (smartSend l op) s = _
      unfold perform
      rw [hs, bind_apply, lift_apply]
    rw [this]
    exact ⟨hg, .inr ⟨e, rfl, .inl hL⟩⟩
  | ok c =>
    obtain ⟨params, rfl, hw, hp⟩ := smartSend_plain he hs
    have hout : out = Smart.query t (.dict [("set_device_info", .obj (toMembers params))]) 3 s := by
      show perform t (smartSend l op) s = _
      unfold perform
      rw [hs, bind_apply, lift_apply]
      rfl
    have hprop := toMembers_proper hw hp
    obtain ⟨f, v, hset, hf⟩ := hl.stores (toMembers params) (ht _ hs)
    have hstep : ∀ a, Holds info a L → Holds info (f a) (L.smart op) := by
      intro a ha
      have := C66_smart_step l (ofMembers (info a)) L op (setInfo params) he ha hs
      have ho : smartObey (ofMembers (info a)) (setInfo params) = Dict.update (ofMembers (info a)) params := if_pos rfl
      rw [ho] at this
      have key := stored_read hp hw (hf a)
      refine ⟨(key _ ?_).trans this.on, (key _ ?_).trans this.brightness, (key _ ?_).trans this.hue, (key _ ?_).trans this.saturation,
        (key _ ?_).trans this.colorTemp⟩ <;> simp [smartKeys]
    have h1 := F.setter_good s hg [] (fun _ h => nomatch h) "set_device_info" (.obj (toMembers params)) hprop 3
    obtain ⟨h2, h3⟩ := F.setter "set_device_info" (.obj (toMembers params)) hprop hset [] (fun _ h => nomatch h) 3 s hg
    rw [hout]
    refine ⟨h1, ?_⟩
    cases ho : (Smart.query t (.dict [("set_device_info", .obj (toMembers params))]) 3 s).1 with
    | ok r =>
      refine .inl ⟨r, rfl, ?_⟩
      have : state (Smart.query t (.dict [("set_device_info", .obj (toMembers params))]) 3 s).2.world = f (state s.world) := (h2 r ho).2
      rw [this]
      exact hstep _ hL
    | error e =>
      refine .inr ⟨e, rfl, ?_⟩
      rcases h3 e ho with h | h
      · have h : state (Smart.query t (.dict [("set_device_info", .obj (toMembers params))]) 3 s).2.world = state s.world := h
        rw [h]
        exact .inl hL
      · have h : state (Smart.query t (.dict [("set_device_info", .obj (toMembers params))]) 3 s).2.world = f (state s.world) := h
        rw [h]
        exact .inr ⟨⟨_, rfl⟩, hstep _ hL⟩

/-- Any steps. -/
theorem run_steps (F : Faithful t p uuid Good state) (hl : IsLight p uuid Rs ans info Takes) (he : l.effect = none) (steps : List Step)
    (hsteps : ∀ requests rc, .read requests rc ∈ steps → ReadQuery Rs requests)
    (ht : ∀ op, .set op ∈ steps → ∀ c, smartSend l op = .ok c → Takes (toMembers c.params)) (s : Smart.St σ) (hg : Good s.world) (L : Lamp)
    (hL : Holds info (state s.world) L) :
    ∃ M, Explains (Accepts (smartSend l)) Lamp.smart L (run t l steps s).1 M ∧ Good (run t l steps s).2.world ∧ Holds info (state (run t l steps s).2.world) M := by
  induction steps generalizing s L with
  | nil => exact ⟨L, .nil L, hg, hL⟩
  | cons step steps ih =>
    have ih := ih (fun q rc h => hsteps q rc (.tail _ h)) (fun op h => ht op (.tail _ h))
    cases step with
    | set op =>
      obtain ⟨h1, h2⟩ := perform_step F hl he op (ht op (.head _)) s hg L hL
      simp only [run]
      rcases h2 with ⟨r, hr, h⟩ | ⟨e, hr, h⟩
      · obtain ⟨M, m1, m2, m3⟩ := ih _ h1 _ h
        exact ⟨M, by rw [hr]; exact .returned m1, m2, m3⟩
      · rcases h with h | ⟨⟨c, hc⟩, h⟩
        · obtain ⟨M, m1, m2, m3⟩ := ih _ h1 _ h
          exact ⟨M, by rw [hr]; exact .failed m1, m2, m3⟩
        · obtain ⟨M, m1, m2, m3⟩ := ih _ h1 _ h
          exact ⟨M, by rw [hr]; exact .unanswered ⟨c, hc⟩ m1, m2, m3⟩
    | read requests rc =>
      obtain ⟨h1, h2, -, -⟩ := F.reads hl.reads (hsteps requests rc (.head _)) rc s hg
      exact ih _ h1 L (by rw [h2]; exact hL)

theorem showsLight {i : Info} {L : Lamp} (he : l.effect = none) (h : SmartHolds i L) : ShowsLight l i L :=
  ⟨fun r => (C66_smart_reads l r i L he h).1, (C66_smart_reads l (.error .kasa) i L he h).2.1,
    fun r => (C66_smart_reads l r i L he h).2.2.1, (C66_smart_reads l (.error .kasa) i L he h).2.2.2.1,
    (C66_smart_reads l (.error .kasa) i L he h).2.2.2.2⟩

theorem entry_report (hl : IsLight p uuid Rs ans info Takes) (a : α) :
    SmartSpec.entryFor (ans a (SmartSpec.requestFor "get_device_info" .null)) = .value (.obj (info a)) := by
  rw [hl.report]
  rfl

theorem infoOf_eq {r : Dict String Smart.Entry} {kvs : Dict String Json} (h : Dict.get? r "get_device_info" = some (.value (.obj kvs))) :
    infoOf r = .ok (ofMembers kvs) := by
  unfold infoOf
  rw [h]

/-- What a transport that carries requests out at most once does with a light. -/
theorem lightShows (F : Faithful t p uuid Good state) (s0 : Smart.St σ) (hs0 : Good s0.world) : LightShows t p uuid state s0 := by
  intro Rs ans info Takes hl l he L0 hL0 steps hsteps ht after
  obtain ⟨L, h1, h2, h3⟩ := run_steps F hl he steps hsteps ht s0 hs0 L0 hL0
  refine ⟨L, h1, ?_, ?_⟩
  · intro requests rc r hq hm hr
    obtain ⟨-, -, -, h4⟩ := F.reads hl.reads hq rc after.2 h2
    obtain ⟨⟨-, hs⟩, hk⟩ := h4 r hr
    have key : ∀ e, Dict.get? r "get_device_info" = some e → e = .value (.obj (info (state after.2.world))) := by
      intro e hge
      obtain ⟨q, hmq, rfl⟩ := hs _ e hge
      have : q = .null := Option.some.inj ((Dict.get?_of_mem hq.wf hmq).symm.trans (Dict.get?_of_mem hq.wf hm))
      subst this
      exact entry_report hl _
    have key' : ∀ i, infoOf r = .ok i → i = ofMembers (info (state after.2.world)) := by
      intro i hi
      cases hge : Dict.get? r "get_device_info" with
      | none => unfold infoOf at hi; rw [hge] at hi; cases hi
      | some e =>
        have := key e hge
        subst this
        rw [infoOf_eq hge] at hi
        exact (Except.ok.inj hi).symm
    refine ⟨fun i hi => ?_, fun hb => ?_⟩
    · rw [key' i hi]
      exact showsLight he h3
    · have hmem := hk hb "get_device_info" (List.mem_map.mpr ⟨_, hm, rfl⟩)
      cases hge : Dict.get? r "get_device_info" with
      | none => exact absurd hmem (Dict.get?_eq_none_iff.mp hge)
      | some e =>
        have := key e hge
        subst this
        exact ⟨_, infoOf_eq hge⟩
  · intro env at' w kids u rc hold hid hwf hq hm hx dev hb hat hbs
    have := (F.update hl.reads env at' w kids u hold hid hwf hq hx rc hb (by rw [hat]; exact h2) (by rw [hat]; exact hbs)).1 _ _ hm
    rw [hat] at this
    rcases this with h | h
    · rw [entry_report hl] at h
      exact .inl ⟨_, infoOf_eq h, showsLight he h3⟩
    · exact .inr h

end

/-! ## Legacy bulbs -/

theorem setLightState_plain {b : Bulb} {state : Info} {t : Option Num} {c : Command} (ht : ∀ n, t = some n → ∃ x, n = .int x)
    (h : setLightState b state t = .ok c) (hw : Dict.WF state) (hp : AllPlain state) :
    c.target = b.service ∧ c.method = b.method ∧ Dict.WF c.params ∧ AllPlain c.params := by
  obtain ⟨h1, h2, h3, -⟩ := setLightState_params h hw
  refine ⟨h1, h2, h3, ?_⟩
  unfold setLightState at h
  have key : ∀ st : Info, AllPlain st → (do checkState st; pure (⟨b.service, b.method,
      Dict.set (defaultOn st) "ignore_default" (.num (.int (ignoreDefault (defaultOn st))))⟩ : Command)) = .ok c → AllPlain c.params := by
    intro st hst hc
    cases hk : checkState st with
    | error e => rw [hk] at hc; cases hc
    | ok _ =>
      rw [hk] at hc
      cases hc
      refine allPlain_set ?_ _ trivial
      unfold defaultOn
      split
      · exact hst
      · exact allPlain_set hst _ trivial
  cases t with
  | none => exact key state hp h
  | some n =>
    obtain ⟨x, rfl⟩ := ht n rfl
    exact key _ (allPlain_set hp _ (v := .num (.int x)) trivial) h

/-- What an operation sends to a bulb. -/
theorem bulbSend_plain {b : Bulb} {op : Op} {c : Command} (h : bulbSend b op = .ok c) :
    c.target = b.service ∧ c.method = b.method ∧ Dict.WF c.params ∧ AllPlain c.params := by
  have ht : ∀ (t : Option Int) n, t.map Num.int = some n → ∃ x, n = .int x := by
    intro t n hn
    cases t with
    | none => cases hn
    | some x => cases hn; exact ⟨x, rfl⟩
  have hstate : ∀ s : Setting, setState b s.toState = .ok c → c.target = b.service ∧ c.method = b.method ∧ Dict.WF c.params ∧ AllPlain c.params := by
    intro s h
    obtain ⟨-, -, -, -, -, -, d7⟩ := get?_stateDict s.toState
    have hd : AllPlain (stateDict s.toState) := by
      obtain ⟨on, br, hue, sat, temp, tr⟩ := s
      cases on <;> cases br <;> cases hue <;> cases sat <;> cases temp <;>
        simp [AllPlain, Plain, stateDict, Setting.toState]
    unfold setState at h
    refine setLightState_plain (ht s.transition) h ?_ ?_
    · split
      · exact Dict.WF_erase (Dict.WF_erase (Dict.WF_set d7 _ _) _) _
      · exact Dict.WF_erase (Dict.WF_set d7 _ _) _
    · split
      · exact allPlain_erase (allPlain_erase (allPlain_set hd _ (v := .num (.int 0)) trivial) _) _
      · exact allPlain_erase (allPlain_set hd _ (v := .num (.int (onValue s.toState.lightOn))) trivial) _
  cases op with
  | brightness x t => exact hstate { brightness := some x, transition := t } h
  | hsv hue sat v t =>
    refine setLightState_plain (ht t) (setHsv_state h) ?_ ?_ <;> cases v <;> simp [Dict.WF, Dict.keys, AllPlain, Plain]
  | colorTemp x v t =>
    refine setLightState_plain (ht t) (setColorTemp_state h) ?_ ?_ <;> cases v <;> simp [Dict.WF, Dict.keys, AllPlain, Plain]
  | state s => exact hstate s h
  | switch on t => exact setLightState_plain (ht t) h (by simp [Dict.WF, Dict.keys]) (by simp [AllPlain, Plain])

theorem ofMembers_reported (d : Dict String Json) : ∃ kvs, reported d = .obj kvs ∧ ofMembers kvs = bulbReport (ofMembers d) := by
  unfold reported bulbReport
  split
  · exact ⟨_, rfl, rfl⟩
  · exact ⟨_, rfl, rfl⟩

section
variable {α : Type} {lib lib' : JsonText.Lib} {p : Program α} {x : LegacyEndToEnd.Chance} {b : Bulb}
variable {Rs : Json → Prop} {info : α → Dict String Json} {Takes : Dict String Json → Prop}
open LegacyEndToEnd (history)

theorem createRequest_proper {target cmd : String} {arg : Json} (h : JsonText.Proper arg) :
    JsonText.Proper (Iot.createRequest target cmd (some arg) none) := by
  simp [Iot.createRequest, JsonText.Proper, JsonText.ProperKvs, Dict.WF, Dict.keys, h]

/-- One operation. -/
theorem bulbPerform_step (hp : LegacyEndToEnd.Answers lib' p) (hb : IsBulb p b Rs info Takes) (a : α) (ops : List LegacyEndToEnd.Op)
    (hops : ∀ j rc, .query j rc ∈ ops → JsonText.Proper j) (op : Op)
    (ht : ∀ c, bulbSend b op = .ok c → Takes (toMembers c.params)) (L : Lamp)
    (hL : BulbHolds (ofMembers (info (history lib lib' p x ops (LegacyEndToEnd.fresh a)).state)) L) :
    let w := history lib lib' p x ops (LegacyEndToEnd.fresh a)
    let out := bulbPerform lib lib' p x (bulbSend b op) w
    (∃ more, (∀ j rc, .query j rc ∈ more → JsonText.Proper j) ∧ out.2 = history lib lib' p x (ops ++ more) (LegacyEndToEnd.fresh a)) ∧
      ((∃ r, out.1 = .ok r ∧ BulbHolds (ofMembers (info out.2.state)) (L.bulb op)) ∨
       (∃ e, out.1 = .error e ∧ (BulbHolds (ofMembers (info out.2.state)) L ∨
          Accepts (bulbSend b) op ∧ BulbHolds (ofMembers (info out.2.state)) (L.bulb op)))) := by
  intro w out
  cases hs : bulbSend b op with
  | error e =>
    have : out = (.error e, w) := by
      show bulbPerform lib lib' p x (bulbSend b op) w = _
      rw [hs]
      rfl
    rw [this]
    exact ⟨⟨[], fun _ _ h => (nomatch h), by rw [List.append_nil]⟩, .inr ⟨e, rfl, .inl hL⟩⟩
  | ok c =>
    obtain ⟨ct, cm, cp⟩ := c
    obtain ⟨h1, h2, h3, h4⟩ := bulbSend_plain hs
    simp only at h1 h2 h3 h4
    subst h1 h2
    have hprop := toMembers_proper h3 h4
    let j := Iot.createRequest b.service b.method (some (.obj (toMembers cp))) none
    let got := LegacyEndToEnd.query lib lib' p x j (3 : Nat) w
    have htk := ht _ hs
    have hout : out = (Iot.queryHelper (fun _ => got.1) b.service b.method (some (.obj (toMembers cp))) none, got.2) := by
      show bulbPerform lib lib' p x (bulbSend b op) w = _
      rw [hs]
      rfl
    have hstep : BulbHolds (ofMembers (info (p.run j w.state).2)) (L.bulb op) := by
      have := C66_bulb_step b (ofMembers (info w.state)) L op _ hL hs
      have ho : bulbObey b (ofMembers (info w.state)) ⟨b.service, b.method, cp⟩ = Dict.update (ofMembers (info w.state)) cp := if_pos ⟨rfl, rfl⟩
      rw [ho] at this
      have key := stored_read h4 h3 (hb.stores _ htk w.state)
      refine ⟨(key _ ?_).trans this.on, (key _ ?_).trans this.brightness, (key _ ?_).trans this.hue, (key _ ?_).trans this.saturation,
        (key _ ?_).trans this.colorTemp⟩ <;> simp [bulbKeys]
    have hj : JsonText.Proper j := createRequest_proper hprop
    obtain ⟨k1, k2⟩ := LegacyEndToEnd.C76_setter lib lib' p x hp a ops hops j hj 3 (hb.idem _ htk)
    rw [hout]
    refine ⟨⟨[.query j (3 : Nat)], ?_, ?_⟩, ?_⟩
    · intro j' rc h
      cases h with
      | head => exact hj
      | tail _ h => cases h
    · rw [LegacyEndToEnd.history_append]
      rfl
    · cases hq : got.1 with
      | ok v =>
        have hst : got.2.state = (p.run j w.state).2 := k1 v hq
        have hholds : BulbHolds (ofMembers (info got.2.state)) (L.bulb op) := by rw [hst]; exact hstep
        show (∃ r, Iot.unwrap b.service b.method v = .ok r ∧ _) ∨ ∃ e, Iot.unwrap b.service b.method v = .error e ∧ _
        cases hu : Iot.unwrap b.service b.method v with
        | ok r => exact .inl ⟨r, rfl, hholds⟩
        | error e => exact .inr ⟨e, rfl, .inr ⟨⟨_, hs⟩, hholds⟩⟩
      | error e =>
        refine .inr ⟨if e.isException then .kasa else e, rfl, ?_⟩
        rcases k2 e hq with h | h
        · refine .inl ?_
          show BulbHolds (ofMembers (info got.2.state)) _
          have h : got.2.state = w.state := h
          rw [h]
          exact hL
        · refine .inr ⟨⟨_, hs⟩, ?_⟩
          show BulbHolds (ofMembers (info got.2.state)) _
          have h : got.2.state = (p.run j w.state).2 := h
          rw [h]
          exact hstep

theorem bulbRun_steps (hp : LegacyEndToEnd.Answers lib' p) (hb : IsBulb p b Rs info Takes) (a : α) (steps : List BulbStep)
    (hsteps : ∀ j rc, .read j rc ∈ steps → JsonText.Proper j ∧ Rs j)
    (ht : ∀ op, .set op ∈ steps → ∀ c, bulbSend b op = .ok c → Takes (toMembers c.params)) (ops : List LegacyEndToEnd.Op)
    (hops : ∀ j rc, .query j rc ∈ ops → JsonText.Proper j) (L : Lamp)
    (hL : BulbHolds (ofMembers (info (history lib lib' p x ops (LegacyEndToEnd.fresh a)).state)) L) :
    let after := bulbRun lib lib' p x b steps (history lib lib' p x ops (LegacyEndToEnd.fresh a))
    ∃ M ops', Explains (Accepts (bulbSend b)) Lamp.bulb L after.1 M ∧ (∀ j rc, .query j rc ∈ ops' → JsonText.Proper j) ∧
      after.2 = history lib lib' p x ops' (LegacyEndToEnd.fresh a) ∧ BulbHolds (ofMembers (info after.2.state)) M := by
  induction steps generalizing ops L with
  | nil => exact ⟨L, ops, .nil L, hops, rfl, hL⟩
  | cons step steps ih =>
    have ih := ih (fun j rc h => hsteps j rc (.tail _ h)) (fun op h => ht op (.tail _ h))
    have happ : ∀ more : List LegacyEndToEnd.Op, (∀ j rc, .query j rc ∈ more → JsonText.Proper j) →
        ∀ j rc, .query j rc ∈ ops ++ more → JsonText.Proper j := by
      intro more hm j rc h
      rcases List.mem_append.mp h with h | h
      · exact hops j rc h
      · exact hm j rc h
    cases step with
    | set op =>
      obtain ⟨⟨more, hm, hw⟩, h⟩ := bulbPerform_step hp hb a ops hops op (ht op (.head _)) L hL
      simp only [bulbRun]
      have hops' := happ more hm
      rcases h with ⟨r, hr, h⟩ | ⟨e, hr, h⟩
      · rw [hr, hw]
        rw [hw] at h
        obtain ⟨M, o, m1, m2, m3, m4⟩ := ih (ops ++ more) hops' _ h
        exact ⟨M, o, .returned m1, m2, m3, m4⟩
      · rw [hr, hw]
        rw [hw] at h
        rcases h with h | ⟨hc, h⟩
        · obtain ⟨M, o, m1, m2, m3, m4⟩ := ih (ops ++ more) hops' _ h
          exact ⟨M, o, .failed m1, m2, m3, m4⟩
        · obtain ⟨M, o, m1, m2, m3, m4⟩ := ih (ops ++ more) hops' _ h
          exact ⟨M, o, .unanswered hc m1, m2, m3, m4⟩
    | read j rc =>
      obtain ⟨h1, h2⟩ := hsteps j rc (.head _)
      have hst := (LegacyEndToEnd.C90_legacy_reads lib lib' p x hp a ops hops j h1 (hb.still j h2) rc).1
      have := ih (ops ++ [.query j rc]) (happ _ (by
        intro j' rc' h
        cases h with
        | head => exact h1
        | tail _ h => cases h)) L (by
          rw [LegacyEndToEnd.history_append]
          show BulbHolds (ofMembers (info (LegacyEndToEnd.query lib lib' p x j rc _).2.state)) L
          rw [hst]
          exact hL)
      rw [LegacyEndToEnd.history_append] at this
      exact this
    | close =>
      have := ih (ops ++ [.close]) (happ _ (by
        intro j' rc' h
        cases h with
        | tail _ h => cases h)) L (by
          rw [LegacyEndToEnd.history_append]
          exact hL)
      rw [LegacyEndToEnd.history_append] at this
      exact this

end
end Kasa.LightNetwork
