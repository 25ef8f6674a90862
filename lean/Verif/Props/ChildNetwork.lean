import Verif.Lemmas.ChildNetwork
import Verif.Props.ReadBack
/-!
# C92: what was set at a child is what is read from it, whatever the network does
-/

namespace Kasa.ChildNetwork
open EndToEnd Smart SmartSpec ChildSpec

section
variable {γ β : Type} (c : BlockCipher) (h : Hashes) (d : KlapSpec.Device) (stored : Bytes) (lib lib' : JsonText.Lib)
variable (p : Program (γ × (String → β))) (x : EndToEnd.Chance) (cfg : Klap.Config) (uuid : String) (time : Nat → Int)
variable (Known : String → Prop) (kid : String → Program β)

/-- **C92, KLAP, other children.** Over KLAP and whatever network, a query to a child leaves all other children as they are. -/
theorem C92_klap_others (hx : x.Fair) (hm : Matches cfg d stored) (hp : ∀ j a, JsonText.Proper (p.run j a).1) (H : Hub p uuid Known kid)
    (n : Nat) (w : EndToEnd.World (γ × (String → β))) :
    OthersStay (klapTransport c h (EndToEnd.network c h d stored lib' p x) cfg lib uuid time) Known (fun s => s.world.state) (EndToEnd.fresh n w) :=
  othersStay (klap_faithful c h d stored lib lib' p x cfg uuid time hx hm hp) H _ fun h => nomatch h

/-- **C92, KLAP, reading back.** Over KLAP and whatever network, once a setting query to a child has returned, a reading query to it that
returns shows what was set, whatever was done with the other children in between. -/
theorem C92_klap_reads_back (hx : x.Fair) (hm : Matches cfg d stored) (hp : ∀ j a, JsonText.Proper (p.run j a).1) (H : Hub p uuid Known kid)
    (n : Nat) (w : EndToEnd.World (γ × (String → β))) :
    ChildReadsBack (klapTransport c h (EndToEnd.network c h d stored lib' p x) cfg lib uuid time) p uuid Known kid (fun s => s.world.state)
      (EndToEnd.fresh n w) :=
  childReadsBack (klap_faithful c h d stored lib lib' p x cfg uuid time hx hm hp) H _ fun h => nomatch h

/-- **C92, KLAP, updates.** Over KLAP and whatever network, an update of the object of a child after a setting query has returned leaves
nothing in it that is not the child as it was set. -/
theorem C92_klap_update (hx : x.Fair) (hm : Matches cfg d stored) (hp : ∀ j a, JsonText.Proper (p.run j a).1) (H : Hub p uuid Known kid)
    (n : Nat) (w : EndToEnd.World (γ × (String → β))) :
    ChildUpdateShows (klapTransport c h (EndToEnd.network c h d stored lib' p x) cfg lib uuid time) p uuid Known kid (fun s => s.world.state)
      (EndToEnd.fresh n w) :=
  childUpdateShows (klap_faithful c h d stored lib lib' p x cfg uuid time hx hm hp) H _ fun h => nomatch h

end

section
variable {γ β : Type} (c : BlockCipher) (owner : Json) (lib lib' : JsonText.Lib) (p : Program (γ × (String → β))) (x : AesEndToEnd.Chance)
variable (user default : Json) (uuid : String) (time : Nat → Int) (Known : String → Prop) (kid : String → Program β)

/-- **C92, AES, other children.** The same over the AES transport. -/
theorem C92_aes_others (hx : x.Fair) (hp : ∀ j a, JsonText.Proper (p.run j a).1) (H : Hub p uuid Known kid) (n : Nat)
    (w : AesEndToEnd.World (γ × (String → β))) :
    OthersStay (AesEndToEnd.aesTransport c (AesEndToEnd.network c owner lib' p x) (AesEndToEnd.config lib user default) uuid time) Known
      (fun s => s.world.state) (AesEndToEnd.fresh n w) :=
  othersStay (AesEndToEnd.faithful c owner lib lib' p x user default uuid time hx hp) H _ (AesEndToEnd.good_new w)

/-- **C92, AES, reading back.** The same over the AES transport. -/
theorem C92_aes_reads_back (hx : x.Fair) (hp : ∀ j a, JsonText.Proper (p.run j a).1) (H : Hub p uuid Known kid) (n : Nat)
    (w : AesEndToEnd.World (γ × (String → β))) :
    ChildReadsBack (AesEndToEnd.aesTransport c (AesEndToEnd.network c owner lib' p x) (AesEndToEnd.config lib user default) uuid time) p uuid
      Known kid (fun s => s.world.state) (AesEndToEnd.fresh n w) :=
  childReadsBack (AesEndToEnd.faithful c owner lib lib' p x user default uuid time hx hp) H _ (AesEndToEnd.good_new w)

/-- **C92, AES, updates.** The same over the AES transport. -/
theorem C92_aes_update (hx : x.Fair) (hp : ∀ j a, JsonText.Proper (p.run j a).1) (H : Hub p uuid Known kid) (n : Nat)
    (w : AesEndToEnd.World (γ × (String → β))) :
    ChildUpdateShows (AesEndToEnd.aesTransport c (AesEndToEnd.network c owner lib' p x) (AesEndToEnd.config lib user default) uuid time) p uuid
      Known kid (fun s => s.world.state) (AesEndToEnd.fresh n w) :=
  childUpdateShows (AesEndToEnd.faithful c owner lib lib' p x user default uuid time hx hp) H _ (AesEndToEnd.good_new w)

end

section
variable {γ β : Type} (owner : Json) (lib lib' : JsonText.Lib) (p : Program (γ × (String → β))) (x : SslEndToEnd.Chance) (cfg : Ssl.Config)
variable (uuid : String) (time : Nat → Int) (Known : String → Prop) (kid : String → Program β)

/-- **C92, HTTPS, other children.** The same over the HTTPS transport. -/
theorem C92_https_others (hx : x.Fair) (hp : ∀ j a, JsonText.Proper (p.run j a).1) (H : Hub p uuid Known kid) (n : Nat)
    (w : SslEndToEnd.World (γ × (String → β))) :
    OthersStay (SslEndToEnd.sslTransport (SslEndToEnd.network owner lib' p x) cfg lib uuid time) Known (fun s => s.world.state)
      (SslEndToEnd.fresh n w) :=
  othersStay (SslEndToEnd.faithful owner lib lib' p x cfg uuid time hx hp) H _ trivial

/-- **C92, HTTPS, reading back.** The same over the HTTPS transport. -/
theorem C92_https_reads_back (hx : x.Fair) (hp : ∀ j a, JsonText.Proper (p.run j a).1) (H : Hub p uuid Known kid) (n : Nat)
    (w : SslEndToEnd.World (γ × (String → β))) :
    ChildReadsBack (SslEndToEnd.sslTransport (SslEndToEnd.network owner lib' p x) cfg lib uuid time) p uuid Known kid (fun s => s.world.state)
      (SslEndToEnd.fresh n w) :=
  childReadsBack (SslEndToEnd.faithful owner lib lib' p x cfg uuid time hx hp) H _ trivial

/-- **C92, HTTPS, updates.** The same over the HTTPS transport. -/
theorem C92_https_update (hx : x.Fair) (hp : ∀ j a, JsonText.Proper (p.run j a).1) (H : Hub p uuid Known kid) (n : Nat)
    (w : SslEndToEnd.World (γ × (String → β))) :
    ChildUpdateShows (SslEndToEnd.sslTransport (SslEndToEnd.network owner lib' p x) cfg lib uuid time) p uuid Known kid (fun s => s.world.state)
      (SslEndToEnd.fresh n w) :=
  childUpdateShows (SslEndToEnd.faithful owner lib lib' p x cfg uuid time hx hp) H _ trivial

end

/-! ## A device with two children that meets the hypotheses -/

def isKnown (id : String) : Bool := id == "a" || id == "b"

/-- Who is addressed, and what for. -/
def envelopeOf (j : Json) : Option (String × Json) :=
  if j.get? "method" = some (.str "control_child") then
    match (j.get? "params").bind (·.get? "device_id"), (j.get? "params").bind (·.get? "requestData") with
    | some (.str id), some d => some (id, d)
    | _, _ => none
  else none

/-- The sample device: its children hold numbers; while it is busy (after `pause`) it does not reach them. -/
def sampleHub : Program (Bool × (String → Int)) where
  run j a :=
    match envelopeOf j with
    | some (id, d) =>
      if isKnown id && !a.1 then
        (.obj [("error_code", .num 0), ("result", .obj [("responseData", (holding.run d (a.2 id)).1)])],
          (a.1, fun i => if i = id then (holding.run d (a.2 id)).2 else a.2 i))
      else (.obj [("error_code", .num (-40106))], a)
    | none => (.obj [("error_code", .num 0), ("result", .obj [])], if j.get? "method" = some (.str "pause") then (true, a.2) else a)

theorem sampleHub_hub : Hub sampleHub "u" (fun id => isKnown id = true) fun _ => holding := by
  intro id d body j a hk ha hj
  have he : envelopeOf j = some (id, d) := by
    have h1 : j.get? "method" = some (.str "control_child") := hj.1
    have h2 : j.get? "params" = some body := hj.2.1
    unfold envelopeOf
    rw [if_pos h1, h2]
    simp only [Option.bind_some, ha.1, ha.2]
  by_cases hb : a.1 = true
  · refine .inr ⟨-40106, none, by decide, ?_, ?_⟩
    · simp only [sampleHub, he, hb, Bool.not_true, Bool.and_false, Bool.false_eq_true, if_false]
      exact ⟨⟨_, rfl⟩, rfl, rfl⟩
    · simp only [sampleHub, he, hb, Bool.not_true, Bool.and_false, Bool.false_eq_true, if_false]
  · have hb : a.1 = false := by simpa using hb
    refine .inl ⟨.obj [("responseData", (holding.run d (a.2 id)).1)], ?_, rfl, rfl, ?_⟩
    · simp only [sampleHub, he, hk, hb, Bool.not_false, Bool.and_self, if_true]
      exact ⟨⟨_, rfl⟩, rfl, rfl⟩
    · simp only [sampleHub, he, hk, hb, Bool.not_false, Bool.and_self, if_true]

theorem sampleHub_proper (j : Json) (a : Bool × (String → Int)) : JsonText.Proper (sampleHub.run j a).1 := by
  unfold sampleHub
  simp only
  split
  · split
    · rename_i id d _ _
      have := holding_proper d (a.2 id)
      simp [JsonText.Proper, JsonText.ProperKvs, Dict.WF, Dict.keys, this]
    · simp [JsonText.Proper, JsonText.ProperKvs, Dict.WF, Dict.keys]
  · simp [JsonText.Proper, JsonText.ProperKvs, Dict.WF, Dict.keys]

theorem plain_obj {kvs : Dict String Json} (h : Dict.get? kvs "responses" = none) : Plain (.obj kvs) := fun _ => ⟨⟨kvs, rfl⟩, h⟩

theorem holding_kidReads : KidReads holding Reading heldAnswers := by
  constructor
  · intro m q hr d b hd
    have hread : EndToEnd.readRequest d = ⟨m, some q⟩ := by
      unfold EndToEnd.readRequest
      simp only [hd.1, hd.2]
    have h1 : m ≠ "set" := hr.1
    have h2 : m ≠ "multipleRequest" := hr.2
    simp only [holding, hread, if_neg h1, if_neg h2]
    exact ⟨answerJson_carries _, trivial⟩
  · intro requests hl hr d b hd
    have hd' : d.get? "method" = some (.str "multipleRequest") ∧
      ∃ params items, d.get? "params" = some params ∧ params.get? "requests" = some (.arr items) ∧
        items.map ChildSpec.readRequest = requests.map fun kv => some (requestFor kv.1 kv.2) := by
      match requests, hl, hd with
      | x :: y :: rest, _, hd => exact hd
    obtain ⟨h1, params, items, h2, h3, h4⟩ := hd'
    have hread : EndToEnd.readRequest d = ⟨"multipleRequest", some params⟩ := by
      unfold EndToEnd.readRequest
      simp only [h1, h2]
    have hitems : items.map EndToEnd.readRequest = requests.map fun kv => requestFor kv.1 kv.2 := by
      have hs : ∀ (l : List Json) (l' : List Request), l.map ChildSpec.readRequest = l'.map some → l.map EndToEnd.readRequest = l' := by
        intro l
        induction l with
        | nil => intro l' h; cases l' with
          | nil => rfl
          | cons r l' => cases h
        | cons j l ih =>
          intro l' h
          cases l' with
          | nil => cases h
          | cons r l' =>
            rw [List.map_cons, List.map_cons, List.cons.injEq] at h
            rw [List.map_cons, ih l' h.2, List.cons.injEq]
            refine ⟨?_, rfl⟩
            have h := h.1
            unfold ChildSpec.readRequest at h
            split at h
            · rename_i m hm
              cases h
              unfold EndToEnd.readRequest
              simp only [hm]
            · cases h
      refine hs _ _ ?_
      rw [h4, List.map_map]
      rfl
    have hans : (holding.run d b).1 = .obj [("error_code", .num 0), ("result", .obj [("responses", .arr
        ((requests.map fun kv => requestFor kv.1 kv.2).reverse.map fun r => .obj (("method", .str r.method) :: answerJson (heldAnswers b r))))])] := by
      simp only [holding, hread, heldMulti, if_true, Option.bind_some, h3]
      rw [hitems]
      rfl
    refine ⟨by simp [holding, hread], ?_⟩
    rw [hans]
    refine ⟨_, _, rfl, rfl, ?_, ?_⟩
    · intro h
      have := congrArg List.length h
      simp at this
      rw [this] at hl
      simp at hl
    · intro item hitem
      obtain ⟨r, hr, rfl⟩ := List.mem_map.mp hitem
      obtain ⟨kv, hkv, rfl⟩ := List.mem_map.mp (List.mem_reverse.mp hr)
      obtain ⟨-, k1, k2⟩ := answerJson_carries (heldAnswers b (requestFor kv.1 kv.2))
      exact ⟨kv.1, kv.2, hkv, rfl, ⟨_, rfl⟩, k1, k2⟩
  · intro r _ b v hv
    unfold heldAnswers at hv
    split at hv
    · cases hv; exact plain_obj rfl
    · split at hv
      · cases hv; exact plain_obj rfl
      · cases hv

theorem holding_kidSets (n : Int) : KidSets holding "set" (.num n) (fun _ => n) (.obj []) := by
  refine ⟨fun d b hd => .inl ?_, fun _ => rfl, plain_obj rfl⟩
  have hread : EndToEnd.readRequest d = ⟨"set", some (.num n)⟩ := by
    unfold EndToEnd.readRequest
    simp only [hd.1, hd.2]
  simp only [holding, hread]
  exact ⟨answerJson_carries _, rfl⟩

abbrev hubTransport : Smart.Transport (Ssl.St (SslEndToEnd.World (Bool × (String → Int)))) :=
  SslEndToEnd.sslTransport (SslEndToEnd.network (.str "user") .orjson sampleHub SslEndToEnd.sampleChance) SslEndToEnd.sampleConfig .python "u" fun n => n

/-- The device, with 7 and 8 at its children; `count` tells what the network does. -/
def hubStart (count : Nat) : Smart.St (Ssl.St (SslEndToEnd.World (Bool × (String → Int)))) :=
  SslEndToEnd.fresh 5 ⟨none, (false, fun i => if i = "a" then 7 else 8), count⟩

/-- Setting 5 at child "a": the answer to the first attempt is lost, the device restarts, and the third attempt is answered. -/
example : (Child.ask hubTransport (some "a") (.dict [("set", .num 5)]) 3 (hubStart 1)).1 = .ok [("set", .value (.obj []))] := by decide +kernel

/-- Setting 5 at child "a" when nothing is lost. -/
def kidSet : Except Exc (Dict String Entry) × Smart.St (Ssl.St (SslEndToEnd.World (Bool × (String → Int)))) :=
  Child.ask hubTransport (some "a") (.dict [("set", .num 5)]) 3 (hubStart 7)

theorem kidSet_ok : kidSet.1 = .ok [("set", .value (.obj []))] := by decide +kernel

/-- Then something is set at the other child. -/
def meanwhile : List Call := [⟨some "b", .dict [("set", .num 9)], 3⟩]

/-- Two methods are read back, one of which the child does not know. -/
example : (Child.ask hubTransport (some "a") (.dict [("get_device_info", .null), ("other", .null)]) 3 (calls hubTransport meanwhile kidSet.2)).1 =
    .ok [("other", .error (-1008)), ("get_device_info", .value (.obj [("value", .num 5)]))] := by decide +kernel

attribute [local irreducible] Smart.query in
/-- The theorem about this case. -/
example (r : Dict String Entry)
    (hr : (Child.ask hubTransport (some "a") (.dict [("get_device_info", .null), ("other", .null)]) 3 (calls hubTransport meanwhile kidSet.2)).1 = .ok r) :
    Shows (heldAnswers 5) [("get_device_info", .null), ("other", .null)] r :=
  ((C92_https_reads_back (.str "user") .python .orjson sampleHub SslEndToEnd.sampleChance SslEndToEnd.sampleConfig "u" (fun n => n)
    (fun id => isKnown id = true) (fun _ => holding) SslEndToEnd.sampleChance_fair sampleHub_proper sampleHub_hub 5
    ⟨none, (false, fun i => if i = "a" then 7 else 8), 7⟩ [] (fun _ h => (nomatch h)) "a" rfl "set" (.num 5) (by simp [JsonText.Proper]) (fun _ => 5)
    (.obj []) (holding_kidSets 5) meanwhile (by
      intro c hc
      cases hc with
      | head => exact .other (by decide) rfl (by intro m q hm; cases hm with | head => simp [JsonText.Proper] | tail _ h => cases h)
      | tail _ h => cases h) Reading heldAnswers holding_kidReads _ (by simp)
    (reading_query _ (by unfold Dict.WF; decide) (by decide)) 3 3 r hr).2.1 _ kidSet_ok).2

attribute [local irreducible] Smart.query in
/-- The other child keeps its number, whatever is asked of this one. -/
example (q : Query) (hq : ProperQuery q) (rc : Int) :
    stateOf (fun s : Ssl.St (SslEndToEnd.World (Bool × (String → Int))) => s.world.state) (Child.ask hubTransport (some "a") q rc (hubStart 1)).2 "b" = 8 :=
  C92_https_others (.str "user") .python .orjson sampleHub SslEndToEnd.sampleChance SslEndToEnd.sampleConfig "u" (fun n => n)
    (fun id => isKnown id = true) (fun _ => holding) SslEndToEnd.sampleChance_fair sampleHub_proper sampleHub_hub 5
    ⟨none, (false, fun i => if i = "a" then 7 else 8), 1⟩ [] (fun _ h => (nomatch h)) "a" rfl q hq rc "b" (by decide)

/-! ### An update of the object of a child -/

/-- The object of child "a" with one module, which has read 7 before. -/
def kidObject : SmartDevice.Local :=
  let mod : SmartDevice.Mod := ⟨SmartDevice.Example.cls "DeviceModule" "device" ["get_device_info"] true 0, [("get_device_info", .null)], SmartModule.fresh⟩
  let last : SmartDevice.Answers := [("get_device_info", .value (.obj [("value", .num 7)]))]
  ⟨{ SmartDevice.newDev with id := some "a", time := some 0, last := last, mods := [("DeviceModule", mod)] }, none, ⟨[], 0⟩⟩

def kidAt (n : Nat) : Smart.St (Ssl.St (SslEndToEnd.World (Bool × (String → Int)))) :=
  if n = 0 then kidSet.2 else (Child.ask hubTransport (some "a") (.dict [("get_device_info", .null)]) 3 kidSet.2).2

def kidEnv : SmartDevice.Env :=
  ⟨fun n _ req => (Child.ask hubTransport (some "a") (.dict req) 3 (kidAt n)).1, fun n => 100 + n, SmartDevice.Example.reg, fun _ => true⟩

theorem kidAt_zero : kidAt 0 = kidSet.2 := if_pos rfl

theorem kidEnv_answer (n : Nat) (id : Option String) (req : SmartDevice.Request) :
    kidEnv.answer n id req = (Child.ask hubTransport (some "a") (.dict req) 3 (kidAt n)).1 := rfl

theorem kid_request : SmartDevice.requestOf false (kidEnv.clock kidObject.net.ticks) kidObject.dev = [("get_device_info", .null)] := by
  decide +kernel

theorem kid_answer : (Child.ask hubTransport (some "a") (.dict [("get_device_info", .null)]) 3 kidSet.2).1 =
    .ok [("get_device_info", .value (.obj [("value", .num 5)]))] := by decide +kernel

theorem kid_asked : kidEnv.answer kidObject.net.asked.length (some "a") [("get_device_info", .null)] =
    .ok [("get_device_info", .value (.obj [("value", .num 5)]))] := by
  rw [show kidObject.net.asked.length = 0 from rfl, kidEnv_answer, kidAt_zero, kid_answer]

/-- What is asked when the first answer is there. -/
theorem kid_update_asked : (SmartDevice.childUpdate kidEnv kidObject).2.net.asked = [(some "a", [("get_device_info", .null)])] := by
  rw [child_asked, kid_request]
  unfold SmartDevice.childQueryModules
  simp only [List.isEmpty_cons, Bool.false_eq_true, if_false]
  rw [PyM.bind_ok (SmartDevice.askModules_ok kidEnv [("get_device_info", .null)]
    { kidObject with net := { kidObject.net with ticks := kidObject.net.ticks + 1 } } _ kid_asked)]
  rfl

attribute [local irreducible] Smart.query Child.ask SmartDevice.childUpdate in
/-- The theorem about this case: the update shows 5. -/
example (e : Entry) (he : Dict.get? (SmartDevice.childUpdate kidEnv kidObject).2.dev.last "get_device_info" = some e) :
    (∃ q, ("get_device_info", q) ∈ SmartDevice.requestOf false (kidEnv.clock kidObject.net.ticks) kidObject.dev ∧
      e = entryFor (heldAnswers 5 (requestFor "get_device_info" q))) ∨ e = .error (-100001) := by
  refine (C92_https_update (.str "user") .python .orjson sampleHub SslEndToEnd.sampleChance SslEndToEnd.sampleConfig "u" (fun n => n)
    (fun id => isKnown id = true) (fun _ => holding) SslEndToEnd.sampleChance_fair sampleHub_proper sampleHub_hub 5
    ⟨none, (false, fun i => if i = "a" then 7 else 8), 7⟩ [] (fun _ h => (nomatch h)) "a" rfl "set" (.num 5) (by simp [JsonText.Proper]) (fun _ => 5)
    (.obj []) (holding_kidSets 5) [] (fun _ h => (nomatch h)) Reading heldAnswers holding_kidReads 3 3 _ kidSet_ok kidEnv kidAt kidObject rfl
    ?_ ?_ ?_ ⟨fun _ _ => kidEnv_answer _ _ _, ?_⟩ kidAt_zero).1 _ e he
  · rw [kid_request]; simp
  · rw [kid_request]
    exact reading_query _ (by unfold Dict.WF; decide) (by decide)
  · rw [kid_request]
    intro e he
    rw [kid_asked] at he
    cases he
  · intro n req hn
    rw [kid_update_asked] at hn
    cases n with
    | zero => cases hn; rw [kidAt_zero]; rfl
    | succ n => cases hn

end Kasa.ChildNetwork
