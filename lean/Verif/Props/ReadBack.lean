import Verif.Lemmas.ReadBack
import Verif.Props.AesEndToEnd
import Verif.Props.SslEndToEnd
import Verif.Props.LegacyEndToEnd
/-!
# C90: what was set is what is read
-/

namespace Kasa.EndToEnd
open PyM KlapSpec Klap

section
variable {α : Type} (c : BlockCipher) (h : Hashes) (d : Device) (stored : Bytes) (lib lib' : JsonText.Lib) (p : Program α) (x : Chance)
variable (cfg : Config) (uuid : String) (time : Nat → Int)

theorem klap_faithful (hx : x.Fair) (hm : Matches cfg d stored) (hp : ∀ j a, JsonText.Proper (p.run j a).1) :
    Faithful (klapTransport c h (network c h d stored lib' p x) cfg lib uuid time) p uuid (Good h stored) fun s => s.world.state := by
  constructor
  · intro w hw s hg
    obtain ⟨res, s', h1, h2, h3⟩ := send_step c h d stored lib lib' p x cfg hx hm hp _ (proper_wire uuid (time s.world.count) w hw) s hg
    exact ⟨_, res, s', message_wire uuid _ w, h1, h2, h3⟩
  · intro s hk
    exact ⟨fun h => (nomatch h), rfl⟩

/-- **C90, KLAP, reading.** Over KLAP and whatever network, a query that reads never changes the device, and if it returns, it shows the
state the device is in. -/
theorem C90_klap_reads (hx : x.Fair) (hm : Matches cfg d stored) (hp : ∀ j a, JsonText.Proper (p.run j a).1) (n : Nat) (w : World α) :
    ReadsTruly (klapTransport c h (network c h d stored lib' p x) cfg lib uuid time) p uuid (fun s => s.world.state) (fresh n w) :=
  (klap_faithful c h d stored lib lib' p x cfg uuid time hx hm hp).readsTruly _ fun h => nomatch h

/-- **C90, KLAP, reading back.** Over KLAP and whatever network, once a setting query has returned, a reading query that returns shows what
was set; after one that raised, what was set or what was before. -/
theorem C90_klap_reads_back (hx : x.Fair) (hm : Matches cfg d stored) (hp : ∀ j a, JsonText.Proper (p.run j a).1) (n : Nat) (w : World α) :
    ReadsBack (klapTransport c h (network c h d stored lib' p x) cfg lib uuid time) p uuid (fun s => s.world.state) (fresh n w) :=
  (klap_faithful c h d stored lib lib' p x cfg uuid time hx hm hp).readsBack _ fun h => nomatch h

/-- **C90, KLAP, updates.** Over KLAP and whatever network, an update of a device object after a setting query has returned leaves, for
everything it asks for, what was set or the marker for a failed query: never what was before. -/
theorem C90_klap_update (hx : x.Fair) (hm : Matches cfg d stored) (hp : ∀ j a, JsonText.Proper (p.run j a).1) (n : Nat) (w : World α) :
    UpdateShows (klapTransport c h (network c h d stored lib' p x) cfg lib uuid time) p uuid (fun s => s.world.state) (fresh n w) :=
  (klap_faithful c h d stored lib lib' p x cfg uuid time hx hm hp).updateShows _ fun h => nomatch h

end
end Kasa.EndToEnd

namespace Kasa.AesEndToEnd
open EndToEnd (Program ReadsTruly ReadsBack UpdateShows)

section
variable {α : Type} (c : BlockCipher) (owner : Json) (lib lib' : JsonText.Lib) (p : Program α) (x : Chance) (user default : Json)
variable (uuid : String) (time : Nat → Int)

/-- **C90, AES, reading.** The same over the AES transport. -/
theorem C90_aes_reads (hx : x.Fair) (hp : ∀ j a, JsonText.Proper (p.run j a).1) (n : Nat) (w : World α) :
    ReadsTruly (aesTransport c (network c owner lib' p x) (config lib user default) uuid time) p uuid (fun s => s.world.state) (fresh n w) :=
  (faithful c owner lib lib' p x user default uuid time hx hp).readsTruly _ (good_new w)

/-- **C90, AES, reading back.** The same over the AES transport. -/
theorem C90_aes_reads_back (hx : x.Fair) (hp : ∀ j a, JsonText.Proper (p.run j a).1) (n : Nat) (w : World α) :
    ReadsBack (aesTransport c (network c owner lib' p x) (config lib user default) uuid time) p uuid (fun s => s.world.state) (fresh n w) :=
  (faithful c owner lib lib' p x user default uuid time hx hp).readsBack _ (good_new w)

/-- **C90, AES, updates.** The same over the AES transport. -/
theorem C90_aes_update (hx : x.Fair) (hp : ∀ j a, JsonText.Proper (p.run j a).1) (n : Nat) (w : World α) :
    UpdateShows (aesTransport c (network c owner lib' p x) (config lib user default) uuid time) p uuid (fun s => s.world.state) (fresh n w) :=
  (faithful c owner lib lib' p x user default uuid time hx hp).updateShows _ (good_new w)

end
end Kasa.AesEndToEnd

namespace Kasa.SslEndToEnd
open EndToEnd (Program ReadsTruly ReadsBack UpdateShows)
open Ssl

section
variable {α : Type} (owner : Json) (lib lib' : JsonText.Lib) (p : Program α) (x : Chance) (cfg : Config)
variable (uuid : String) (time : Nat → Int)

/-- **C90, HTTPS, reading.** The same over the HTTPS transport. -/
theorem C90_https_reads (hx : x.Fair) (hp : ∀ j a, JsonText.Proper (p.run j a).1) (n : Nat) (w : World α) :
    ReadsTruly (sslTransport (network owner lib' p x) cfg lib uuid time) p uuid (fun s => s.world.state) (fresh n w) :=
  (faithful owner lib lib' p x cfg uuid time hx hp).readsTruly _ trivial

/-- **C90, HTTPS, reading back.** The same over the HTTPS transport. -/
theorem C90_https_reads_back (hx : x.Fair) (hp : ∀ j a, JsonText.Proper (p.run j a).1) (n : Nat) (w : World α) :
    ReadsBack (sslTransport (network owner lib' p x) cfg lib uuid time) p uuid (fun s => s.world.state) (fresh n w) :=
  (faithful owner lib lib' p x cfg uuid time hx hp).readsBack _ trivial

/-- **C90, HTTPS, updates.** The same over the HTTPS transport. -/
theorem C90_https_update (hx : x.Fair) (hp : ∀ j a, JsonText.Proper (p.run j a).1) (n : Nat) (w : World α) :
    UpdateShows (sslTransport (network owner lib' p x) cfg lib uuid time) p uuid (fun s => s.world.state) (fresh n w) :=
  (faithful owner lib lib' p x cfg uuid time hx hp).updateShows _ trivial

end
end Kasa.SslEndToEnd

namespace Kasa.LegacyEndToEnd
open EndToEnd

section
variable {α : Type} (lib lib' : JsonText.Lib) (p : Program α) (x : Chance)

theorem times_fixed {j : Json} (hr : ∀ a, (p.run j a).2 = a) (n : Nat) (a : α) : times p j n a = a := by
  induction n with
  | zero => rfl
  | succ n ih => rw [times, ih, hr]

theorem history_append (ops ops' : List Op) (w : World α) :
    history lib lib' p x (ops ++ ops') w = history lib lib' p x ops' (history lib lib' p x ops w) := by
  induction ops generalizing w with
  | nil => rfl
  | cons op ops ih =>
    cases op with
    | close => exact ih _
    | query j rc => exact ih _

/-- **C90, legacy devices, reading.** A request that reads, sent over whatever connection, does not change the device; and if the query
returns, its result is the device's own answer in the state it is in. -/
theorem C90_legacy_reads (hp : Answers lib' p) (a : α) (ops : List Op) (hops : ∀ j rc, .query j rc ∈ ops → JsonText.Proper j) (j : Json)
    (hj : JsonText.Proper j) (hr : ∀ a, (p.run j a).2 = a) (rc : Nat) :
    let w := history lib lib' p x ops (fresh a)
    let got := query lib lib' p x j rc w
    got.2.state = w.state ∧ ∀ v, got.1 = .ok v → v = (p.run j w.state).1 := by
  intro w got
  obtain ⟨h1, h2⟩ := C76_legacy_query lib lib' p x hp a ops hops j hj rc
  constructor
  · cases ho : got.1 with
    | ok v =>
      obtain ⟨k, -, -, h⟩ := h1 v ho
      exact h.trans (times_fixed p hr _ _)
    | error e =>
      obtain ⟨k, -, h⟩ := h2 e ho
      exact h.trans (times_fixed p hr _ _)
  · intro v hv
    obtain ⟨k, -, h, -⟩ := h1 v hv
    rw [h, times_fixed p hr]

/-- **C90, legacy devices, reading back.** After a query that sets something (where asking twice is no different from asking once), and
any number of queries that read and closes, a query that reads and returns shows the device as it was set if the setting query returned, and
as it was set or as it was before if it raised. -/
theorem C90_legacy_reads_back (hp : Answers lib' p) (a : α) (ops : List Op) (hops : ∀ j rc, .query j rc ∈ ops → JsonText.Proper j)
    (j : Json) (hj : JsonText.Proper j) (hidem : ∀ a, (p.run j (p.run j a).2).2 = (p.run j a).2) (rc : Nat)
    (between : List Op) (hbetween : ∀ i rc, .query i rc ∈ between → JsonText.Proper i ∧ (∀ a, (p.run i a).2 = a) ∧ 0 ≤ rc)
    (i : Json) (hi : JsonText.Proper i) (hr : ∀ a, (p.run i a).2 = a) (rc' : Nat) :
    let w := history lib lib' p x ops (fresh a)
    let set := query lib lib' p x j rc w
    let got := query lib lib' p x i rc' (history lib lib' p x between set.2)
    ∀ v, got.1 = .ok v →
      (∀ u, set.1 = .ok u → v = (p.run i (p.run j w.state).2).1) ∧
      ∀ e, set.1 = .error e → v = (p.run i w.state).1 ∨ v = (p.run i (p.run j w.state).2).1 := by
  intro w set got v hv
  have hset : set.2 = history lib lib' p x (ops ++ [.query j rc]) (fresh a) := by rw [history_append]; rfl
  have hops' : ∀ i rc', Op.query i rc' ∈ ops ++ [.query j rc] → JsonText.Proper i := by
    intro i rc' h
    rcases List.mem_append.mp h with h | h
    · exact hops i rc' h
    · cases h with
      | head => exact hj
      | tail _ h => cases h
  have hstill : ∀ (between : List Op), (∀ i rc, .query i rc ∈ between → JsonText.Proper i ∧ (∀ a, (p.run i a).2 = a) ∧ 0 ≤ rc) →
      ∀ ops : List Op, (∀ j rc, .query j rc ∈ ops → JsonText.Proper j) →
      (history lib lib' p x between (history lib lib' p x ops (fresh a))).state = (history lib lib' p x ops (fresh a)).state := by
    intro between
    induction between with
    | nil => intro _ ops _; rfl
    | cons op between ih =>
      intro hb ops hops
      have hop : ∀ j rc, Op.query j rc ∈ ops ++ [op] → JsonText.Proper j := by
        intro j rc h
        rcases List.mem_append.mp h with h | h
        · exact hops j rc h
        · cases h with
          | head => exact (hb j rc (.head _)).1
          | tail _ h => cases h
      have hrest := ih (fun i rc h => hb i rc (.tail _ h)) (ops ++ [op]) hop
      rw [history_append] at hrest
      cases op with
      | close => exact hrest
      | query i rc =>
        obtain ⟨h1, h2, h3⟩ := hb i rc (.head _)
        obtain ⟨n, rfl⟩ := Int.eq_ofNat_of_zero_le h3
        exact hrest.trans (C90_legacy_reads lib lib' p x hp a ops hops i h1 h2 n).1
  have hbe := hstill between hbetween (ops ++ [.query j rc]) hops'
  rw [← hset] at hbe
  have hread := (C90_legacy_reads lib lib' p x hp a (ops ++ [.query j rc] ++ between) (by
    intro i rc' h
    rcases List.mem_append.mp h with h | h
    · exact hops' i rc' h
    · exact (hbetween i rc' h).1) i hi hr rc').2
  rw [history_append, ← hset] at hread
  have hv := hread v hv
  rw [hbe] at hv
  obtain ⟨k1, k2⟩ := C76_setter lib lib' p x hp a ops hops j hj rc hidem
  refine ⟨fun u hu => ?_, fun e he => ?_⟩
  · rw [hv, show set.2.state = _ from k1 u hu]
  · rcases k2 e he with h | h
    · exact .inl (by rw [hv, show set.2.state = _ from h])
    · exact .inr (by rw [hv, show set.2.state = _ from h])

end
end Kasa.LegacyEndToEnd

/-! ## A device that meets the hypotheses -/

namespace Kasa.EndToEnd
open PyM KlapSpec Klap

/-- What the sample device answers: it holds a number, which can be set and read. -/
def heldAnswers (a : Int) (r : Smart.Request) : SmartSpec.Answer :=
  if r.method = "set" then (0, some (.obj [])) else if r.method = "get_device_info" then (0, some (.obj [("value", .num a)])) else (-1008, none)

def heldMulti (a : Int) (q : Option Json) : SmartSpec.Answer :=
  match q.bind fun q => q.get? "requests" with
  | some (.arr l) =>
    (0, some (.obj [("responses", .arr ((l.map readRequest).reverse.map fun r => .obj (("method", .str r.method) :: answerJson (heldAnswers a r))))]))
  | _ => (-1008, none)

/-- The sample device. -/
def holding : Program Int where
  run j a := let r := readRequest j
    (.obj (answerJson (if r.method = "multipleRequest" then heldMulti a r.params else heldAnswers a r)),
      if r.method = "set" then (match r.params with | some (.num n) => n | _ => a) else a)

/-- Requests that read. -/
def Reading (r : Smart.Request) : Prop := r.method ≠ "set" ∧ r.method ≠ "multipleRequest"

theorem holding_reads : Reads holding "u" Reading heldAnswers := by
  constructor
  · intro r hr j a hj
    have : readRequest j = r := readRequest_of hj
    simp only [holding, this, if_neg hr.1, if_neg hr.2]
    exact ⟨answerJson_carries _, trivial⟩
  · intro rs _ j a hj
    have hrs : (rs.map listed).map readRequest = rs := by
      rw [List.map_map]
      refine (List.map_congr_left fun r _ => ?_).trans (List.map_id rs)
      obtain ⟨m, q⟩ := r
      cases q <;> rfl
    have hread := readRequest_of hj
    have hans : (holding.run j a).1 = .obj [("error_code", .num 0), ("result",
        .obj [("responses", .arr (rs.reverse.map fun r => .obj (("method", .str r.method) :: answerJson (heldAnswers a r))))])] := by
      simp only [holding, hread, heldMulti, if_true]
      simp only [Option.bind_some, Json.get?, Dict.get?, if_true]
      rw [hrs]
      rfl
    refine ⟨by simp [holding, hread], ?_⟩
    rw [hans]
    refine ⟨_, rfl, ⟨_, rfl, rfl⟩, ?_⟩
    intro item hitem
    obtain ⟨r, hr, rfl⟩ := List.mem_map.1 hitem
    obtain ⟨-, h1, h2⟩ := answerJson_carries (heldAnswers a r)
    exact ⟨r, List.mem_reverse.1 hr, rfl, ⟨_, rfl⟩, h1, h2⟩
  · intro r _ a v hv
    unfold heldAnswers at hv
    split at hv
    · cases hv; rfl
    · split at hv
      · cases hv; rfl
      · cases hv

theorem holding_sets (n : Int) (hn : n ≠ 0) : Sets holding "u" (SmartSpec.requestFor "set" (.num n)) (fun _ => n) (.obj []) := by
  have hr : ∀ j, Message "u" (.single (SmartSpec.requestFor "set" (.num n))) j → readRequest j = ⟨"set", some (.num n)⟩ := by
    intro j hj
    have : SmartSpec.requestFor "set" (.num n) = ⟨"set", some (.num n)⟩ := by unfold SmartSpec.requestFor; rw [if_pos (by simp [Json.truthy, hn])]
    rw [this] at hj
    exact readRequest_of hj
  refine ⟨fun j a hj => ?_, fun _ => rfl, fun j a hj => ?_, rfl⟩
  · simp only [holding, hr j hj]
    rfl
  · have : (holding.run j a).1 = .obj (answerJson (0, some (.obj []))) := by
      simp only [holding, hr j hj]
      rfl
    rw [this]
    exact answerJson_carries _

theorem holding_proper (j : Json) (a : Int) : JsonText.Proper (holding.run j a).1 := by
  have hone : ∀ r, JsonText.Proper (.obj (answerJson (heldAnswers a r))) ∧ JsonText.Proper (.obj (("method", .str r.method) :: answerJson (heldAnswers a r))) := by
    intro r
    unfold heldAnswers
    split
    · simp [answerJson, JsonText.Proper, JsonText.ProperKvs, Dict.WF, Dict.keys]
    · split <;> simp [answerJson, JsonText.Proper, JsonText.ProperKvs, Dict.WF, Dict.keys]
  have hb : ∀ rs : List Smart.Request, JsonText.ProperList (rs.map fun r => .obj (("method", .str r.method) :: answerJson (heldAnswers a r))) := by
    intro rs
    induction rs with
    | nil => simp [JsonText.ProperList]
    | cons r rs ih =>
      rw [List.map_cons, JsonText.ProperList]
      exact ⟨(hone r).2, ih⟩
  unfold holding heldMulti
  simp only
  split
  · split
    · show JsonText.Proper (.obj [("error_code", .num 0), ("result", .obj [("responses", .arr (List.map _ _))])])
      generalize hl : List.map _ _ = items
      have : JsonText.ProperList items := by rw [← hl]; exact hb _
      simp [JsonText.Proper, JsonText.ProperKvs, Dict.WF, Dict.keys, this]
    · simp [answerJson, JsonText.Proper, JsonText.ProperKvs, Dict.WF, Dict.keys]
  · exact (hone _).1

theorem reading_query (requests : Dict String Json) (hwf : Dict.WF requests) (h : ∀ kv ∈ requests, kv.2 = .null ∧ kv.1 ≠ "set" ∧ kv.1 ≠ "multipleRequest") :
    ReadQuery Reading requests := by
  refine ⟨hwf, fun m q hm => ?_, fun m q hm => ?_⟩
  · obtain rfl : q = .null := (h _ hm).1
    simp [JsonText.Proper]
  · obtain rfl : q = .null := (h _ hm).1
    exact (h _ hm).2

end Kasa.EndToEnd

namespace Kasa.SslEndToEnd
open EndToEnd Ssl

abbrev holdingTransport : Smart.Transport (St (World Int)) :=
  sslTransport (network (.str "user") .orjson holding sampleChance) sampleConfig .python "u" fun n => n

/-- Setting 5: the answer to the first attempt is lost, the device restarts, and the third attempt is answered. -/
def wasSet : Except Exc (Dict String Smart.Entry) × Smart.St (St (World Int)) :=
  Smart.query holdingTransport (.dict [("set", .num 5)]) 3 (fresh 5 ⟨none, 7, 1⟩)

example : wasSet.1 = .ok [("set", .value (.obj []))] := by decide +kernel

/-- Setting 5 when nothing is lost. -/
def calmSet : Except Exc (Dict String Smart.Entry) × Smart.St (St (World Int)) :=
  Smart.query holdingTransport (.dict [("set", .num 5)]) 3 (fresh 5 ⟨none, 7, 7⟩)

theorem calmSet_ok : calmSet.1 = .ok [("set", .value (.obj []))] := by decide +kernel
theorem calmSet_batch : calmSet.2.batchSize ≠ 1 := by decide +kernel

/-- Two methods are read back, one of which the device does not know. -/
example : (Smart.query holdingTransport (.dict [("get_device_info", .null), ("other", .null)]) 3 calmSet.2).1 =
    .ok [("other", .error (-1008)), ("get_device_info", .value (.obj [("value", .num 5)]))] := by decide +kernel

/-- The theorem about this case. -/
example (r : Dict String Smart.Entry) (hr : (Smart.query holdingTransport (.dict [("get_device_info", .null), ("other", .null)]) 3 calmSet.2).1 = .ok r) :
    Shows (heldAnswers 5) [("get_device_info", .null), ("other", .null)] r :=
  (C90_https_reads_back (.str "user") .python .orjson holding sampleChance sampleConfig "u" (fun n => n) sampleChance_fair holding_proper 5
    ⟨none, 7, 7⟩ Reading heldAnswers holding_reads [] (fun _ h => (nomatch h)) "set" (.num 5) (by simp [JsonText.Proper]) (fun _ => 5) (.obj [])
    (holding_sets 5 (by decide)) [] (fun _ h => (nomatch h)) _
    (reading_query _ (by unfold Dict.WF; decide) (by decide)) 3 3 r hr).1 _ (show calmSet.1 = .ok [("set", .value (.obj []))] from calmSet_ok)

/-- A device object with one module, which has read 7 before. -/
def oldWorld : SmartDevice.World :=
  let mod : SmartDevice.Mod := ⟨SmartDevice.Example.cls "DeviceModule" "device" ["get_device_info"] true 0, [("get_device_info", .null)], SmartModule.fresh⟩
  let last : SmartDevice.Answers := [("get_device_info", .value (.obj [("value", .num 7)]))]
  ⟨{ SmartDevice.newDev with time := some 0, last := last, mods := [("DeviceModule", mod)] }, [], ⟨[], 0⟩, 1⟩

/-- The protocol object when it queries. -/
def atQuery (n : Nat) : Smart.St (St (World Int)) :=
  if n = 0 then calmSet.2 else (Smart.query holdingTransport (.dict [("get_device_info", .null)]) 3 calmSet.2).2

def holdingEnv : SmartDevice.Env :=
  ⟨fun n _ req => (Smart.query holdingTransport (.dict req) 3 (atQuery n)).1, fun n => 100 + n, SmartDevice.Example.reg, fun _ => true⟩

theorem holding_request : SmartDevice.requestOf false (holdingEnv.clock oldWorld.net.ticks) oldWorld.dev = [("get_device_info", .null)] := by
  decide +kernel

theorem holding_answer : (Smart.query holdingTransport (.dict [("get_device_info", .null)]) 3 calmSet.2).1 =
    .ok [("get_device_info", .value (.obj [("value", .num 5)]))] := by decide +kernel

/-- The same surroundings, with the first answer written out. -/
def plainEnv : SmartDevice.Env :=
  { holdingEnv with answer := fun n id req =>
      if n = 0 ∧ req = [("get_device_info", .null)] then .ok [("get_device_info", .value (.obj [("value", .num 5)]))] else holdingEnv.answer n id req }

theorem atQuery_zero : atQuery 0 = calmSet.2 := if_pos rfl

theorem holdingEnv_answer (n : Nat) (id : Option String) (req : SmartDevice.Request) :
    holdingEnv.answer n id req = (Smart.query holdingTransport (.dict req) 3 (atQuery n)).1 := rfl

theorem holdingEnv_eq : holdingEnv = plainEnv := by
  have : holdingEnv.answer = fun n id req =>
      if n = 0 ∧ req = [("get_device_info", .null)] then .ok [("get_device_info", .value (.obj [("value", .num 5)]))] else holdingEnv.answer n id req := by
    funext n id req
    by_cases h : n = 0 ∧ req = [("get_device_info", .null)]
    · rw [if_pos h, h.1, h.2, holdingEnv_answer, atQuery_zero, holding_answer]
    · rw [if_neg h]
  unfold plainEnv
  rw [← this]

/-- The update shows what was set. -/
theorem holding_update : (SmartDevice.update holdingEnv true true oldWorld).2.dev.last = [("get_device_info", .value (.obj [("value", .num 5)]))] ∧
    (SmartDevice.update holdingEnv true true oldWorld).2.net.asked = [(none, [("get_device_info", .null)])] := by
  rw [holdingEnv_eq]
  decide +kernel

attribute [local irreducible] Smart.query SmartDevice.update in
/-- The theorem about this case. -/
example : ∀ k q, (k, q) ∈ SmartDevice.requestOf false (holdingEnv.clock oldWorld.net.ticks) oldWorld.dev →
    Dict.get? (SmartDevice.update holdingEnv true true oldWorld).2.dev.last k = some (SmartSpec.entryFor (heldAnswers 5 (SmartSpec.requestFor k q))) ∨
    Dict.get? (SmartDevice.update holdingEnv true true oldWorld).2.dev.last k = some (.error (-100001)) := by
  refine (C90_https_update (.str "user") .python .orjson holding sampleChance sampleConfig "u" (fun n => n) sampleChance_fair holding_proper 5
    ⟨none, 7, 7⟩ Reading heldAnswers holding_reads [] (fun _ h => (nomatch h)) "set" (.num 5) (by simp [JsonText.Proper]) (fun _ => 5) (.obj [])
    (holding_sets 5 (by decide)) 3 3 _ (show calmSet.1 = .ok [("set", .value (.obj []))] from calmSet_ok) holdingEnv atQuery oldWorld true 0 rfl rfl
    (by unfold Dict.WF; decide +kernel) ?_ ?_ ⟨fun _ _ => holdingEnv_answer _ _ _, ?_⟩ atQuery_zero calmSet_batch).1
  · rw [holding_request]
    exact reading_query _ (by unfold Dict.WF; decide) (by decide)
  · rw [holding_request]
    intro e he
    rw [show oldWorld.net.asked.length = 0 from rfl, holdingEnv_answer, atQuery_zero, holding_answer] at he
    cases he
  · intro n req hn
    rw [holding_update.2] at hn
    cases n with
    | zero => cases hn; rfl
    | succ n => cases hn

end Kasa.SslEndToEnd
