import Verif.Lemmas.LightNetwork
/-!
# C91: a light that is set over an unreliable network shows what it was set to
-/

namespace Kasa.LightNetwork
open EndToEnd hiding Op Explains
open PyM Lights LightReading LightReadingSpec LightCalls

section
variable {α : Type} (c : BlockCipher) (h : Hashes) (d : KlapSpec.Device) (stored : Bytes) (lib lib' : JsonText.Lib) (p : Program α)
variable (x : EndToEnd.Chance) (cfg : Klap.Config) (uuid : String) (time : Nat → Int)

/-- **C91, KLAP.** Over KLAP and whatever network: readings of a light show what the operations on it, with their outcomes, explain. -/
theorem C91_klap (hx : x.Fair) (hm : Matches cfg d stored) (hp : ∀ j a, JsonText.Proper (p.run j a).1) (n : Nat) (w : EndToEnd.World α) :
    LightShows (klapTransport c h (EndToEnd.network c h d stored lib' p x) cfg lib uuid time) p uuid (fun s => s.world.state) (EndToEnd.fresh n w) :=
  lightShows (klap_faithful c h d stored lib lib' p x cfg uuid time hx hm hp) _ fun h => nomatch h

end

section
variable {α : Type} (c : BlockCipher) (owner : Json) (lib lib' : JsonText.Lib) (p : Program α) (x : AesEndToEnd.Chance)
variable (user default : Json) (uuid : String) (time : Nat → Int)

/-- **C91, AES.** The same over the AES transport. -/
theorem C91_aes (hx : x.Fair) (hp : ∀ j a, JsonText.Proper (p.run j a).1) (n : Nat) (w : AesEndToEnd.World α) :
    LightShows (AesEndToEnd.aesTransport c (AesEndToEnd.network c owner lib' p x) (AesEndToEnd.config lib user default) uuid time) p uuid
      (fun s => s.world.state) (AesEndToEnd.fresh n w) :=
  lightShows (AesEndToEnd.faithful c owner lib lib' p x user default uuid time hx hp) _ (AesEndToEnd.good_new w)

end

section
variable {α : Type} (owner : Json) (lib lib' : JsonText.Lib) (p : Program α) (x : SslEndToEnd.Chance) (cfg : Ssl.Config)
variable (uuid : String) (time : Nat → Int)

/-- **C91, HTTPS.** The same over the HTTPS transport. -/
theorem C91_https (hx : x.Fair) (hp : ∀ j a, JsonText.Proper (p.run j a).1) (n : Nat) (w : SslEndToEnd.World α) :
    LightShows (SslEndToEnd.sslTransport (SslEndToEnd.network owner lib' p x) cfg lib uuid time) p uuid (fun s => s.world.state)
      (SslEndToEnd.fresh n w) :=
  lightShows (SslEndToEnd.faithful owner lib lib' p x cfg uuid time hx hp) _ trivial

end

/-! ## After an operation that returned -/

theorem explains_snoc {β : Type} {accepts : Op → Prop} {apply : Lamp → Op → Lamp} {trace : List (Op × Except Exc β)} {op : Op} {r : β} :
    ∀ {L M : Lamp}, Explains accepts apply L (trace ++ [(op, .ok r)]) M → ∃ L', Explains accepts apply L trace L' ∧ M = apply L' op := by
  induction trace with
  | nil =>
    intro L M h
    cases h with
    | returned h =>
      cases h
      exact ⟨L, .nil L, rfl⟩
  | cons o trace ih =>
    intro L M h
    cases h with
    | returned h =>
      obtain ⟨L', h1, h2⟩ := ih h
      exact ⟨L', .returned h1, h2⟩
    | failed h =>
      obtain ⟨L', h1, h2⟩ := ih h
      exact ⟨L', .failed h1, h2⟩
    | unanswered ha h =>
      obtain ⟨L', h1, h2⟩ := ih h
      exact ⟨L', .unanswered ha h1, h2⟩

theorem run_append {σ : Type} (t : Smart.Transport σ) (l : Light) (steps steps' : List Step) (s : Smart.St σ) :
    run t l (steps ++ steps') s =
      ((run t l steps s).1 ++ (run t l steps' (run t l steps s).2).1, (run t l steps' (run t l steps s).2).2) := by
  induction steps generalizing s with
  | nil => rfl
  | cons step steps ih =>
    cases step with
    | set op => simp only [List.cons_append, run, ih]
    | read requests rc => simp only [List.cons_append, run, ih]

theorem run_reads {σ : Type} (t : Smart.Transport σ) (l : Light) (reads : List (Dict String Json × Int)) (s : Smart.St σ) :
    (run t l (reads.map fun r => .read r.1 r.2) s).1 = [] := by
  induction reads generalizing s with
  | nil => rfl
  | cons r reads ih => exact ih _

/-- **C91, after an operation that returned.** Whatever was done before: after an operation on the light has returned, and after any number of
queries that read, be they answered or not, a query that asks for the state and returns shows what was set: the brightness, the colour, the
temperature, on or off. -/
theorem C91_last_operation {σ α : Type} {t : Smart.Transport σ} {p : Program α} {uuid : String} {state : σ → α} {s0 : Smart.St σ}
    (hs : LightShows t p uuid state s0) {Rs : Smart.Request → Prop} {ans : α → Smart.Request → SmartSpec.Answer} {info : α → Dict String Json}
    {Takes : Dict String Json → Prop} (hl : IsLight p uuid Rs ans info Takes) (l : Light) (he : l.effect = none) (L0 : Lamp)
    (hL0 : SmartHolds (ofMembers (info (state s0.world))) L0) (steps : List Step)
    (hsteps : ∀ requests rc, .read requests rc ∈ steps → ReadQuery Rs requests)
    (htakes : ∀ op, .set op ∈ steps → ∀ c, smartSend l op = .ok c → Takes (toMembers c.params)) (op : Op)
    (hop : ∀ c, smartSend l op = .ok c → Takes (toMembers c.params)) (v : Dict String Smart.Entry)
    (hv : (perform t (smartSend l op) (run t l steps s0).2).1 = .ok v) (reads : List (Dict String Json × Int))
    (hreads : ∀ r ∈ reads, ReadQuery Rs r.1) (requests : Dict String Json) (hq : ReadQuery Rs requests)
    (hm : ("get_device_info", .null) ∈ requests) (rc : Int) (r : Dict String Smart.Entry)
    (hr : (Smart.query t (.dict requests) rc (run t l (reads.map fun r => .read r.1 r.2) (perform t (smartSend l op) (run t l steps s0).2).2).2).1
      = .ok r) (i : Info) (hi : infoOf r = .ok i) :
    SeenAs l op i := by
  obtain ⟨M, h1, h2, -⟩ := hs Rs ans info Takes hl l he L0 hL0 (steps ++ [.set op] ++ reads.map fun r => .read r.1 r.2) (by
      intro q rc h
      rcases List.mem_append.mp h with h | h
      · rcases List.mem_append.mp h with h | h
        · exact hsteps q rc h
        · cases h with
          | tail _ h => cases h
      · obtain ⟨r, hr, he⟩ := List.mem_map.mp h
        cases he
        exact hreads r hr) (by
      intro o h
      rcases List.mem_append.mp h with h | h
      · rcases List.mem_append.mp h with h | h
        · exact htakes o h
        · cases h with
          | head => exact hop
          | tail _ h => cases h
      · obtain ⟨r, hr, he⟩ := List.mem_map.mp h
        cases he)
  rw [run_append, run_append] at h1 h2
  simp only [run, hv, run_reads, List.append_nil] at h1 h2
  obtain ⟨L', -, rfl⟩ := explains_snoc h1
  have hsh := (h2 requests rc r hq hm hr).1 i hi
  cases op with
  | brightness x _ =>
    unfold SeenAs
    simp only
    split
    · rename_i hx
      rw [hsh.on]
      simp [Lamp.smart, hx]
    · rename_i hx
      intro hb
      rw [hsh.brightness _ hb]
      simp [Lamp.smart, hx]
  | hsv hue sat value _ =>
    intro hc
    refine ⟨_, hsh.hsv hc, ?_⟩
    rintro x rfl
    rfl
  | colorTemp x _ _ => exact fun ht => hsh.colorTemp ht
  | state s => exact hsh.on
  | switch on _ => exact hsh.on

/-! ## Legacy bulbs -/

/-- **C91, legacy bulbs.** A legacy bulb without effects, which is `L0` at first, is set, to what the device takes, and read, over whatever
connection, with any closes in between.  Then at any time it is a light that the operations and their outcomes explain, and this is what a query
that asks for the system information and returns shows. -/
theorem C91_bulb {α : Type} (lib lib' : JsonText.Lib) (p : Program α) (x : LegacyEndToEnd.Chance) (hp : LegacyEndToEnd.Answers lib' p) (b : Bulb)
    (hc : b.isColor = true → b.isDimmable = true) (Rs : Json → Prop) (info : α → Dict String Json) (Takes : Dict String Json → Prop)
    (hb : IsBulb p b Rs info Takes) (a : α) (L0 : Lamp) (hL0 : BulbHolds (ofMembers (info a)) L0) (steps : List BulbStep)
    (hsteps : ∀ j rc, .read j rc ∈ steps → JsonText.Proper j ∧ Rs j)
    (htakes : ∀ op, .set op ∈ steps → ∀ c, bulbSend b op = .ok c → Takes (toMembers c.params)) :
    let after := bulbRun lib lib' p x b steps (LegacyEndToEnd.fresh a)
    ∃ L, Explains (Accepts (bulbSend b)) Lamp.bulb L0 after.1 L ∧
      ∀ j rc v, JsonText.Proper j → Rs j → (LegacyEndToEnd.query lib lib' p x j (rc : Nat) after.2).1 = .ok v →
        ∃ light, lightOf v = some light ∧ ShowsBulb b light L := by
  intro after
  obtain ⟨L, ops, h1, h2, h3, h4⟩ := bulbRun_steps (x := x) (lib := lib) hp hb a steps hsteps htakes [] (fun _ _ h => nomatch h) L0 hL0
  refine ⟨L, h1, ?_⟩
  intro j rc v hj hR hv
  have h3 : after.2 = _ := h3
  have h4 : BulbHolds (ofMembers (info after.2.state)) L := h4
  rw [h3] at hv
  have hv := (LegacyEndToEnd.C90_legacy_reads lib lib' p x hp a ops h2 j hj (hb.still j hR) rc).2 v hv
  rw [← h3] at hv
  obtain ⟨kvs, hk1, hk2⟩ := ofMembers_reported (info after.2.state)
  have hlight : lightOf v = some (bulbReport (ofMembers (info after.2.state))) := by
    unfold lightOf
    rw [hv, hb.report j hR, hk1]
    simp only [hk2]
  obtain ⟨r1, r2, r3, r4, r5⟩ := C66_bulb_reads b _ L h4 hc
  exact ⟨_, hlight, r1, r2, r3, r4, r5⟩

/-! ## Devices that meet the hypotheses -/

section
open SmartSpec (requestFor)

/-- What the sample light reports. -/
def lampInfo (L : Lamp) : Dict String Json :=
  [("device_on", .bool L.on), ("brightness", .num L.brightness), ("hue", .num L.hue), ("saturation", .num L.saturation),
   ("color_temp", .num L.colorTemp)]

def lampAnswers (L : Lamp) (r : Smart.Request) : SmartSpec.Answer :=
  if r.method = "set_device_info" then (0, some (.obj []))
  else if r.method = "get_device_info" then (0, some (.obj (lampInfo L)))
  else (-1008, none)

def lampMulti (L : Lamp) (q : Option Json) : SmartSpec.Answer :=
  match q.bind fun q => q.get? "requests" with
  | some (.arr l) =>
    (0, some (.obj [("responses", .arr ((l.map readRequest).reverse.map fun r => .obj (("method", .str r.method) :: answerJson (lampAnswers L r))))]))
  | _ => (-1008, none)

def numOr (params : Dict String Json) (k : String) (n : Int) : Int := match Dict.get? params k with | some (.num m) => m | _ => n

def lampSet (params : Dict String Json) (L : Lamp) : Lamp where
  on := match Dict.get? params "device_on" with | some (.bool b) => b | _ => L.on
  brightness := numOr params "brightness" L.brightness
  hue := numOr params "hue" L.hue
  saturation := numOr params "saturation" L.saturation
  colorTemp := numOr params "color_temp" L.colorTemp

/-- The sample light. -/
def lamp : Program Lamp where
  run j L := let r := readRequest j
    (.obj (answerJson (if r.method = "multipleRequest" then lampMulti L r.params else lampAnswers L r)),
      if r.method = "set_device_info" then (match r.params with | some (.obj params) => lampSet params L | _ => L) else L)

/-- It takes a truth value for "on" and numbers for the rest. -/
def LampTakes (params : Dict String Json) : Prop :=
  params ≠ [] ∧ (∀ v, Dict.get? params "device_on" = some v → ∃ b, v = .bool b) ∧
    ∀ k ∈ ["brightness", "hue", "saturation", "color_temp"], ∀ v, Dict.get? params k = some v → ∃ n, v = .num n

def LampReading (r : Smart.Request) : Prop := r.method ≠ "set_device_info" ∧ r.method ≠ "multipleRequest"

theorem lamp_reads : Reads lamp "u" LampReading lampAnswers := by
  constructor
  · intro r hr j a hj
    have : readRequest j = r := readRequest_of hj
    simp only [lamp, this, if_neg hr.1, if_neg hr.2]
    exact ⟨answerJson_carries _, trivial⟩
  · intro rs _ j a hj
    have hrs : (rs.map listed).map readRequest = rs := by
      rw [List.map_map]
      refine (List.map_congr_left fun r _ => ?_).trans (List.map_id rs)
      obtain ⟨m, q⟩ := r
      cases q <;> rfl
    have hread := readRequest_of hj
    have hans : (lamp.run j a).1 = .obj [("error_code", .num 0), ("result",
        .obj [("responses", .arr (rs.reverse.map fun r => .obj (("method", .str r.method) :: answerJson (lampAnswers a r))))])] := by
      simp only [lamp, hread, lampMulti, if_true]
      simp only [Option.bind_some, Json.get?, Dict.get?, if_true]
      rw [hrs]
      rfl
    refine ⟨by simp [lamp, hread], ?_⟩
    rw [hans]
    refine ⟨_, rfl, ⟨_, rfl, rfl⟩, ?_⟩
    intro item hitem
    obtain ⟨r, hr, rfl⟩ := List.mem_map.1 hitem
    obtain ⟨-, h1, h2⟩ := answerJson_carries (lampAnswers a r)
    exact ⟨r, List.mem_reverse.1 hr, rfl, ⟨_, rfl⟩, h1, h2⟩
  · intro r _ a v hv
    unfold lampAnswers at hv
    split at hv
    · cases hv; rfl
    · split at hv
      · cases hv; rfl
      · cases hv

theorem numOr_idem (params : Dict String Json) (k : String) (n : Int) : numOr params k (numOr params k n) = numOr params k n := by
  unfold numOr
  generalize Dict.get? params k = o
  cases o with
  | none => rfl
  | some v => cases v <;> rfl

theorem lampSet_idem (params : Dict String Json) (L : Lamp) : lampSet params (lampSet params L) = lampSet params L := by
  unfold lampSet
  simp only [numOr_idem]
  congr 1
  generalize Dict.get? params "device_on" = o
  cases o with
  | none => rfl
  | some v => cases v <;> rfl

theorem numOr_get {params : Dict String Json} {k : String} {n : Int} (h : ∀ v, Dict.get? params k = some v → ∃ n, v = .num n) :
    some (.num (numOr params k n)) = (Dict.get? params k).or (some (.num n)) := by
  unfold numOr
  cases hg : Dict.get? params k with
  | none => rfl
  | some v =>
    obtain ⟨m, rfl⟩ := h v hg
    rfl

theorem lamp_isLight : IsLight lamp "u" LampReading lampAnswers lampInfo LampTakes := by
  refine ⟨lamp_reads, fun _ => rfl, ?_⟩
  intro params hT
  obtain ⟨h0, h1, h2⟩ := hT
  refine ⟨lampSet params, .obj [], ?_, ?_⟩
  · have hr : ∀ j, Message "u" (.single (requestFor "set_device_info" (.obj params))) j →
        readRequest j = ⟨"set_device_info", some (.obj params)⟩ := by
      intro j hj
      have : requestFor "set_device_info" (.obj params) = ⟨"set_device_info", some (.obj params)⟩ := by
        unfold requestFor
        cases params with
        | nil => exact absurd rfl h0
        | cons kv l => rfl
      rw [this] at hj
      exact readRequest_of hj
    refine ⟨fun j a hj => ?_, lampSet_idem params, fun j a hj => ?_, rfl⟩
    · simp only [lamp, hr j hj]
      rfl
    · have : (lamp.run j a).1 = .obj (answerJson (0, some (.obj []))) := by
        simp only [lamp, hr j hj]
        rfl
      rw [this]
      exact answerJson_carries _
  · intro a k hk
    simp only [smartKeys, List.mem_cons, List.not_mem_nil, or_false] at hk
    rcases hk with rfl | rfl | rfl | rfl | rfl
    · show some (Json.bool (lampSet params a).on) = (Dict.get? params "device_on").or (some (.bool a.on))
      unfold lampSet
      cases hg : Dict.get? params "device_on" with
      | none => rfl
      | some v =>
        obtain ⟨b, rfl⟩ := h1 v hg
        rfl
    · exact numOr_get (h2 _ (by simp))
    · exact numOr_get (h2 _ (by simp))
    · exact numOr_get (h2 _ (by simp))
    · exact numOr_get (h2 _ (by simp))

theorem lamp_proper (j : Json) (a : Lamp) : JsonText.Proper (lamp.run j a).1 := by
  have hone : ∀ r, JsonText.Proper (.obj (answerJson (lampAnswers a r))) ∧ JsonText.Proper (.obj (("method", .str r.method) :: answerJson (lampAnswers a r))) := by
    intro r
    unfold lampAnswers lampInfo
    split
    · simp [answerJson, JsonText.Proper, JsonText.ProperKvs, Dict.WF, Dict.keys]
    · split <;> simp [answerJson, JsonText.Proper, JsonText.ProperKvs, Dict.WF, Dict.keys]
  have hb : ∀ rs : List Smart.Request, JsonText.ProperList (rs.map fun r => .obj (("method", .str r.method) :: answerJson (lampAnswers a r))) := by
    intro rs
    induction rs with
    | nil => simp [JsonText.ProperList]
    | cons r rs ih =>
      rw [List.map_cons, JsonText.ProperList]
      exact ⟨(hone r).2, ih⟩
  unfold lamp lampMulti
  simp only
  split
  · split
    · show JsonText.Proper (.obj [("error_code", .num 0), ("result", .obj [("responses", .arr (List.map _ _))])])
      generalize hl : List.map _ _ = items
      have : JsonText.ProperList items := by rw [← hl]; exact hb _
      simp [JsonText.Proper, JsonText.ProperKvs, Dict.WF, Dict.keys, this]
    · simp [answerJson, JsonText.Proper, JsonText.ProperKvs, Dict.WF, Dict.keys]
  · exact (hone _).1

def sampleLight : Light := ⟨true, true, some (2500, 6500), none⟩
def sampleLamp : Lamp := ⟨true, 50, 0, 0, 2700⟩

abbrev lampTransport : Smart.Transport (Ssl.St (SslEndToEnd.World Lamp)) :=
  SslEndToEnd.sslTransport (SslEndToEnd.network (.str "user") .orjson lamp SslEndToEnd.sampleChance) SslEndToEnd.sampleConfig .python "u" fun n => n

/-- The brightness is set, but the answer is lost and the device restarts; a brightness of 101 is refused; a query reads. -/
def sampleSteps : List Step := [.set (.brightness 70 none), .set (.brightness 101 none), .read [("get_device_info", .null)] 0]

theorem sample_reads (requests : Dict String Json) (rc : Int) (h : .read requests rc ∈ sampleSteps) : ReadQuery LampReading requests := by
  simp [sampleSteps] at h
  obtain ⟨rfl, -⟩ := h
  refine ⟨by unfold Dict.WF; decide, ?_, ?_⟩
  · intro m q hm
    cases hm with
    | head => simp [JsonText.Proper]
    | tail _ h => cases h
  · intro m q hm
    cases hm with
    | head => exact ⟨by decide, by decide⟩
    | tail _ h => cases h

theorem sample_takes (op : Op) (h : .set op ∈ sampleSteps) (c : Command) (hc : smartSend sampleLight op = .ok c) :
    LampTakes (toMembers c.params) := by
  simp [sampleSteps] at h
  rcases h with rfl | rfl
  · have := smartBrightness_cases (l := sampleLight) rfl hc
    subst this
    simp [LampTakes, toMembers, setInfo, toJson, numJson, Dict.get?]
  · have := smartBrightness_cases (l := sampleLight) rfl hc
    subst this
    simp [LampTakes, toMembers, setInfo, toJson, numJson, Dict.get?]

/-- The first returns after a retry, the second raises. -/
example : (run lampTransport sampleLight sampleSteps (SslEndToEnd.fresh 5 ⟨none, sampleLamp, 1⟩)).1.map (fun o => o.2.toOption.isSome) =
    [true, false] := by decide +kernel

attribute [local irreducible] Smart.query in
/-- The theorem about this case. -/
example : ∃ L, Explains (Accepts (smartSend sampleLight)) Lamp.smart sampleLamp
    (run lampTransport sampleLight sampleSteps (SslEndToEnd.fresh 5 ⟨none, sampleLamp, 1⟩)).1 L := by
  obtain ⟨L, h, -⟩ := C91_https (.str "user") .python .orjson lamp SslEndToEnd.sampleChance SslEndToEnd.sampleConfig "u" (fun n => n)
    SslEndToEnd.sampleChance_fair lamp_proper 5 ⟨none, sampleLamp, 1⟩ LampReading lampAnswers lampInfo LampTakes lamp_isLight sampleLight rfl sampleLamp
    ⟨rfl, rfl, rfl, rfl, rfl⟩ sampleSteps sample_reads sample_takes
  exact ⟨L, h⟩

/-- The light set to 70 when nothing is lost. -/
theorem calm_set : (perform lampTransport (smartSend sampleLight (.brightness 70 none)) (SslEndToEnd.fresh 5 ⟨none, sampleLamp, 7⟩)).1 =
    .ok [("set_device_info", .value (.obj []))] := by decide +kernel

attribute [local irreducible] Smart.query in
/-- `C91_last_operation` about this case. -/
example (rc : Int) (r : Dict String Smart.Entry) (i : Info)
    (hr : (Smart.query lampTransport (.dict [("get_device_info", .null)]) rc
      (perform lampTransport (smartSend sampleLight (.brightness 70 none)) (SslEndToEnd.fresh 5 ⟨none, sampleLamp, 7⟩)).2).1 = .ok r)
    (hi : infoOf r = .ok i) : smartBrightnessOf sampleLight (.error .kasa) i = .ok (.int 70) :=
  C91_last_operation (C91_https (.str "user") .python .orjson lamp SslEndToEnd.sampleChance SslEndToEnd.sampleConfig "u" (fun n => n)
    SslEndToEnd.sampleChance_fair lamp_proper 5 ⟨none, sampleLamp, 7⟩) lamp_isLight sampleLight rfl sampleLamp ⟨rfl, rfl, rfl, rfl, rfl⟩ []
    (fun _ _ h => nomatch h) (fun _ h => nomatch h) (.brightness 70 none) (sample_takes _ (.head _)) _ calm_set [] (fun _ h => nomatch h)
    [("get_device_info", .null)] (sample_reads _ 0 (by simp [sampleSteps])) (.head _) rc r hr i hi rfl

end

/-! ### A bulb -/

/-- The sample bulb is on or off, and bright or not. -/
def smallInfo (a : Bool × Bool) : Dict String Json :=
  [("on_off", .num (if a.1 then 1 else 0)), ("brightness", .num (if a.2 then 100 else 50)), ("hue", .num 0), ("saturation", .num 0),
   ("color_temp", .num 2700)]

def sampleBulb : Bulb := ⟨"s", "set_light_state", false, true, false, "KL110"⟩

def smallSet (params : Dict String Json) (a : Bool × Bool) : Bool × Bool :=
  (match Dict.get? params "on_off" with | some v => decide (v = .num 1) | none => a.1,
   match Dict.get? params "brightness" with | some v => decide (v = .num 100) | none => a.2)

def smallBulb : Program (Bool × Bool) where
  run j a :=
    if (j.get? "system").isSome then (.obj [("system", .obj [("get_sysinfo", .obj [("light_state", reported (smallInfo a))])])], a)
    else match (j.get? "s").bind (·.get? "set_light_state") with
      | some (.obj params) => (.obj [("s", .obj [("set_light_state", .obj [("err_code", .num 0)])])], smallSet params a)
      | _ => (.obj [], a)

def SmallTakes (params : Dict String Json) : Prop :=
  (∀ v, Dict.get? params "on_off" = some v → v = .num 0 ∨ v = .num 1) ∧
    (∀ v, Dict.get? params "brightness" = some v → v = .num 50 ∨ v = .num 100) ∧
    Dict.get? params "hue" = none ∧ Dict.get? params "saturation" = none ∧ Dict.get? params "color_temp" = none

def asksSystem : Json := .obj [("system", .obj [("get_sysinfo", .obj [])])]

theorem smallBulb_run (params : Dict String Json) (a : Bool × Bool) :
    smallBulb.run (Iot.createRequest sampleBulb.service sampleBulb.method (some (.obj params)) none) a =
      (.obj [("s", .obj [("set_light_state", .obj [("err_code", .num 0)])])], smallSet params a) := rfl

theorem smallBulb_isBulb : IsBulb smallBulb sampleBulb (fun j => j = asksSystem) smallInfo SmallTakes := by
  refine ⟨?_, ?_, ?_, ?_⟩
  · rintro j rfl a; rfl
  · rintro j rfl a; rfl
  · rintro params ⟨h1, h2, h3, h4, h5⟩ a k hk
    rw [smallBulb_run]
    simp only [bulbKeys, List.mem_cons, List.not_mem_nil, or_false] at hk
    rcases hk with rfl | rfl | rfl | rfl | rfl
    · show some (Json.num (if (smallSet params a).1 = true then 1 else 0)) = (Dict.get? params "on_off").or (some (.num (if a.1 = true then 1 else 0)))
      unfold smallSet
      cases hg : Dict.get? params "on_off" with
      | none => rfl
      | some v => rcases h1 v hg with rfl | rfl <;> rfl
    · show some (Json.num (if (smallSet params a).2 = true then 100 else 50)) =
        (Dict.get? params "brightness").or (some (.num (if a.2 = true then 100 else 50)))
      unfold smallSet
      cases hg : Dict.get? params "brightness" with
      | none => rfl
      | some v => rcases h2 v hg with rfl | rfl <;> rfl
    · rw [h3]; rfl
    · rw [h4]; rfl
    · rw [h5]; rfl
  · intro params hT a j
    show smallSet params (smallSet params a) = smallSet params a
    unfold smallSet
    cases Dict.get? params "on_off" <;> cases Dict.get? params "brightness" <;> rfl

theorem smallBulb_answers (lib : JsonText.Lib) : LegacyEndToEnd.Answers lib smallBulb := by
  have h1 : ∀ a, JsonText.Proper (.obj [("system", .obj [("get_sysinfo", .obj [("light_state", reported (smallInfo a))])])]) ∧
      (utf8 (JsonText.dumps lib (.obj [("system", .obj [("get_sysinfo", .obj [("light_state", reported (smallInfo a))])])]))).length < 2 ^ 32 := by
    rintro ⟨x, y⟩
    refine ⟨?_, ?_⟩
    · cases x <;> simp [reported, smallInfo, ofMembers, ofJson, Dict.get?, onOff, Num.truthy, JsonText.Proper, JsonText.ProperKvs, Dict.WF, Dict.keys]
    · cases lib <;> cases x <;> cases y <;> decide +kernel
  intro j a
  unfold smallBulb
  simp only
  split
  · exact h1 a
  · split
    · refine ⟨by simp [JsonText.Proper, JsonText.ProperKvs, Dict.WF, Dict.keys], by dsimp only; cases lib <;> decide +kernel⟩
    · refine ⟨by simp [JsonText.Proper, JsonText.ProperKvs, Dict.WF, Dict.keys], by dsimp only; cases lib <;> decide +kernel⟩

def sampleBulbSteps : List BulbStep := [.set (.brightness 100 none), .close, .read asksSystem 1, .set (.switch false none)]

theorem sampleBulb_takes (op : Op) (h : .set op ∈ sampleBulbSteps) (c : Command) (hc : bulbSend sampleBulb op = .ok c) :
    SmallTakes (toMembers c.params) := by
  simp [sampleBulbSteps] at h
  rcases h with rfl | rfl
  · have : bulbSend sampleBulb (.brightness 100 none) =
        .ok ⟨"s", "set_light_state", [("brightness", .num (.int 100)), ("on_off", .num (.int 1)), ("ignore_default", .num (.int 1))]⟩ := rfl
    rw [this] at hc
    cases hc
    simp [SmallTakes, toMembers, toJson, numJson, Dict.get?]
  · have : bulbSend sampleBulb (.switch false none) =
        .ok ⟨"s", "set_light_state", [("on_off", .num (.int 0)), ("ignore_default", .num (.int 1))]⟩ := rfl
    rw [this] at hc
    cases hc
    simp [SmallTakes, toMembers, toJson, numJson, Dict.get?]

/-- The first operation returns. -/
example : ((bulbRun .python .orjson smallBulb LegacyEndToEnd.sampleChance sampleBulb [.set (.brightness 100 none)]
    (LegacyEndToEnd.fresh (false, false))).1.map fun o => o.2.toOption) = [some (.obj [])] := by decide +kernel

/-- The theorem about this case. -/
example : ∃ L, Explains (Accepts (bulbSend sampleBulb)) Lamp.bulb ⟨false, 50, 0, 0, 2700⟩
    (bulbRun .python .orjson smallBulb LegacyEndToEnd.sampleChance sampleBulb sampleBulbSteps (LegacyEndToEnd.fresh (false, false))).1 L := by
  obtain ⟨L, h, -⟩ := C91_bulb .python .orjson smallBulb LegacyEndToEnd.sampleChance (smallBulb_answers _) sampleBulb (fun h => (by cases h)) _ smallInfo
    SmallTakes smallBulb_isBulb (false, false) ⟨false, 50, 0, 0, 2700⟩ ⟨rfl, rfl, rfl, rfl, rfl⟩ sampleBulbSteps (by
      intro j rc h
      simp [sampleBulbSteps] at h
      obtain ⟨rfl, -⟩ := h
      exact ⟨by simp [asksSystem, JsonText.Proper, JsonText.ProperKvs, Dict.WF, Dict.keys], rfl⟩) sampleBulb_takes
  exact ⟨L, h⟩

end Kasa.LightNetwork
