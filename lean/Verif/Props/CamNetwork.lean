import Verif.Props.CamReliable
import Verif.Lemmas.CamNetwork
import Verif.Props.CamEndToEnd
/-!
# C94: a camera that is set over an unreliable network shows what it was set to
-/

namespace Kasa.CamNetwork
open PyM Camera CameraSpec
open EndToEnd (Program Reads ReadQuery Shows readings ProperQuery Faithful Uninterrupted readRequest readRequest_of answerJson answerJson_carries listed)
open Smart (Request Entry)
open SmartSpec (Answer requestFor)
open CamEndToEnd (Plain Sets queries camTransport network config fresh good_start)

section
variable {α : Type} (c : BlockCipher) (h : Hashes) (d : CamEndToEnd.Device) (lib lib' : JsonText.Lib) (p : Program α)
variable (x : CamEndToEnd.Chance) (creds kept : Option (String × String)) (defaults : String × String) (uuid : String) (time : Nat → Int)

/-- **C94, reading.** Over the camera transport and whatever network: a query that reads does not change the camera, and what it returns is
the state the camera is in. -/
theorem C94_reads_truly (hx : x.Fair) (hp : ∀ j a, JsonText.Proper (p.run j a).1) (n : Nat) (w : CamEndToEnd.World α) :
    let cfg := config lib creds kept defaults
    CamReadsTruly (camTransport c h (network c h d cfg lib' p x) cfg lib uuid time) p uuid (fun s => s.world.state) (fresh cfg n w) :=
  camReadsTruly (CamEndToEnd.faithful c h d lib lib' p x creds kept defaults uuid time hx hp) _ (good_start _ w)

/-- **C94, reading back.** What was set is what is read. -/
theorem C94_reads_back (hx : x.Fair) (hp : ∀ j a, JsonText.Proper (p.run j a).1) (n : Nat) (w : CamEndToEnd.World α) :
    let cfg := config lib creds kept defaults
    CamReadsBack (camTransport c h (network c h d cfg lib' p x) cfg lib uuid time) p uuid (fun s => s.world.state) (fresh cfg n w) :=
  camReadsBack (CamEndToEnd.faithful c h d lib lib' p x creds kept defaults uuid time hx hp) _ (good_start _ w)

/-- **C94, updating.** What was set is what a camera object holds after an update, for each method that could be asked for. -/
theorem C94_update_shows (hx : x.Fair) (hp : ∀ j a, JsonText.Proper (p.run j a).1) (n : Nat) (w : CamEndToEnd.World α) :
    let cfg := config lib creds kept defaults
    CamUpdateShows (camTransport c h (network c h d cfg lib' p x) cfg lib uuid time) p uuid (fun s => s.world.state) (fresh cfg n w) :=
  camUpdateShows (CamEndToEnd.faithful c h d lib lib' p x creds kept defaults uuid time hx hp) _ (good_start _ w)

/-- **C94, switches.** Readings of the switches of a camera, and of whether it is on, show what the operations on it, with their
outcomes, explain. -/
theorem C94_switches (hx : x.Fair) (hp : ∀ j a, JsonText.Proper (p.run j a).1) (n : Nat) (w : CamEndToEnd.World α) :
    let cfg := config lib creds kept defaults
    CameraShows (camTransport c h (network c h d cfg lib' p x) cfg lib uuid time) p uuid (fun s => s.world.state) (fresh cfg n w) :=
  cameraShows (CamEndToEnd.faithful c h d lib lib' p x creds kept defaults uuid time hx hp) _ (good_start _ w)

end

/-! ## After an operation that returned -/

theorem explains_snoc {β : Type} {have_ : List Switch} {trace : List (Op × Except Exc β)} {op : Op} {r : β} :
    ∀ {P Q : Panel}, Explains have_ P (trace ++ [(op, .ok r)]) Q → ∃ P', Explains have_ P trace P' ∧ Q = P'.apply have_ op := by
  induction trace with
  | nil =>
    intro P Q h
    cases h with
    | returned h =>
      cases h
      exact ⟨P, .nil P, rfl⟩
  | cons o trace ih =>
    intro P Q h
    cases h with
    | returned h =>
      obtain ⟨P', h1, h2⟩ := ih h
      exact ⟨P', .returned h1, h2⟩
    | failed h =>
      obtain ⟨P', h1, h2⟩ := ih h
      exact ⟨P', .failed h1, h2⟩
    | unanswered h =>
      obtain ⟨P', h1, h2⟩ := ih h
      exact ⟨P', .unanswered h1, h2⟩

theorem run_append {σ : Type} (t : Smart.Transport σ) (have_ : List Switch) (steps steps' : List Step) (s : Smart.St σ) :
    run t have_ (steps ++ steps') s =
      ((run t have_ steps s).1 ++ (run t have_ steps' (run t have_ steps s).2).1, (run t have_ steps' (run t have_ steps s).2).2) := by
  induction steps generalizing s with
  | nil => rfl
  | cons step steps ih =>
    cases step with
    | set op => simp only [List.cons_append, run, ih]
    | read requests rc => simp only [List.cons_append, run, ih]

theorem run_reads {σ : Type} (t : Smart.Transport σ) (have_ : List Switch) (reads : List (Dict String Json × Int)) (s : Smart.St σ) :
    (run t have_ (reads.map fun r => .read r.1 r.2) s).1 = [] := by
  induction reads generalizing s with
  | nil => rfl
  | cons r reads ih => exact ih _

/-- What the library reads from `r` after this operation: the switch as it was flipped, or the camera on or off as it was told; and when a
camera was turned off, its lens is masked. -/
def SeenAs (have_ : List Switch) (op : Op) (r : List (String × Entry)) : Prop :=
  match op with
  | .flip w on => w ∈ have_ → enabled w r = .ok on
  | .power on => Switch.lensMask ∈ have_ → isOn (.present false) true r = .ok on ∧ enabled .lensMask r = .ok !on

/-- **C94, after an operation that returned.** Whatever was done before: after an operation on a camera has returned, and after any
number of queries that read, be they answered or not, a query that asks for the switches and returns shows what was set. -/
theorem C94_last_operation {σ α : Type} {t : Smart.Transport σ} {p : Program α} {uuid : String} {state : σ → α} {s0 : Smart.St σ}
    (hs : CameraShows t p uuid state s0) {Rs : Request → Prop} {ans : α → Request → Answer} {have_ : List Switch} {store : α → Store}
    (hc : IsCamera p uuid Rs ans have_ store) (P0 : Panel) (hP0 : PanelOf have_ (store (state s0.world)) P0) (steps : List Step)
    (hsteps : ∀ requests rc, .read requests rc ∈ steps → CamReadQuery Rs requests) (op : Op) (v : Dict String Entry)
    (hv : (perform t (send have_ op) (run t have_ steps s0).2).1 = .ok v) (reads : List (Dict String Json × Int))
    (hreads : ∀ r ∈ reads, CamReadQuery Rs r.1) (requests : Dict String Json) (hq : CamReadQuery Rs requests) (hask : AsksFor have_ requests)
    (rc : Int) (r : Dict String Entry) :
    let last := (run t have_ (reads.map fun r => .read r.1 r.2) (perform t (send have_ op) (run t have_ steps s0).2).2).2
    (SmartCam.query t (.dict requests) rc last).1 = .ok r → last.batchSize ≠ 1 → SeenAs have_ op r := by
  intro last hr hb
  obtain ⟨Q, h1, h2⟩ := hs Rs ans have_ store hc P0 hP0 (steps ++ [.set op] ++ reads.map fun r => .read r.1 r.2) (by
      intro q rc h
      rcases List.mem_append.mp h with h | h
      · rcases List.mem_append.mp h with h | h
        · exact hsteps q rc h
        · cases h with
          | tail _ h => cases h
      · obtain ⟨r, hr, he⟩ := List.mem_map.mp h
        cases he
        exact hreads r hr)
  rw [run_append, run_append] at h1 h2
  simp only [run, hv, run_reads, List.append_nil] at h1 h2
  obtain ⟨P', -, rfl⟩ := explains_snoc h1
  obtain ⟨k1, k2⟩ := h2 requests rc r hq hask hr hb
  cases op with
  | flip w on =>
    intro hw
    rw [k1 w hw]
    simp [Panel.apply, hw]
  | power on =>
    intro hw
    rw [k1 _ hw]
    simp only [hw, decide_true, if_true] at k2
    rw [k2]
    simp [Panel.apply, hw]

/-- The case that nothing was done before, and nothing is read in between. -/
theorem last_now {σ α : Type} {t : Smart.Transport σ} {p : Program α} {uuid : String} {state : σ → α} {s0 : Smart.St σ}
    (hs : CameraShows t p uuid state s0) {Rs : Request → Prop} {ans : α → Request → Answer} {have_ : List Switch} {store : α → Store}
    (hc : IsCamera p uuid Rs ans have_ store) (P0 : Panel) (hP0 : PanelOf have_ (store (state s0.world)) P0) (op : Op) (v : Dict String Entry)
    (hv : (perform t (send have_ op) s0).1 = .ok v) (requests : Dict String Json) (hq : CamReadQuery Rs requests) (hask : AsksFor have_ requests)
    (rc : Int) (r : Dict String Entry) (hr : (SmartCam.query t (.dict requests) rc (perform t (send have_ op) s0).2).1 = .ok r)
    (hb : (perform t (send have_ op) s0).2.batchSize ≠ 1) : SeenAs have_ op r :=
  C94_last_operation hs hc P0 hP0 [] (fun _ _ h => nomatch h) op v hv [] (fun _ h => nomatch h) requests hq hask rc r hr hb

/-! ## A camera that meets the hypotheses -/

-- Several of the evaluations below at a time take too much memory.
set_option Elab.async false

/-- The state of the sample camera: its lens mask and its LED. -/
abbrev Small := Bool × Bool

def smallStore (a : Small) : Store := fun m _ =>
  if m = "lens_mask" then [("enabled", onOff a.1)] else if m = "led" then [("enabled", onOff a.2)] else []

def section_ (m sec : String) (on : Bool) : Json := .obj [(m, .obj [(sec, .obj [("enabled", onOff on)])])]

def smallAnswers (a : Small) (r : Request) : Answer :=
  if r.method = "getLensMaskConfig" then (0, some (section_ "lens_mask" "lens_mask_info" a.1))
  else if r.method = "getLedStatus" then (0, some (section_ "led" "config" a.2))
  else if r.method = "setLensMaskConfig" ∨ r.method = "setLedStatus" then (0, some (.obj []))
  else (-40101, none)

def smallSet (r : Request) (a : Small) : Small :=
  if r.method = "setLensMaskConfig" then (decide (r.params = some (section_ "lens_mask" "lens_mask_info" true)), a.2)
  else if r.method = "setLedStatus" then (a.1, decide (r.params = some (section_ "led" "config" true)))
  else a

def parts (q : Option Json) : List Request :=
  match q.bind fun q => q.get? "requests" with
  | some (.arr l) => l.map readRequest
  | _ => []

/-- The sample camera. -/
def small : Program Small where
  run j a := let r := readRequest j
    if r.method = "multipleRequest" then
      (.obj [("error_code", .num 0), ("result", .obj [("responses",
          .arr ((parts r.params).map fun r => .obj (("method", .str r.method) :: answerJson (smallAnswers a r))))])],
        (parts r.params).foldl (fun a r => smallSet r a) a)
    else (.obj (answerJson (smallAnswers a r)), smallSet r a)

def SmallReading (r : Request) : Prop := r.method ∉ ["setLensMaskConfig", "setLedStatus", "multipleRequest"]

theorem smallSet_reading {r : Request} (hr : SmallReading r) (a : Small) : smallSet r a = a := by
  simp only [SmallReading, List.mem_cons, List.not_mem_nil, or_false, not_or] at hr
  simp only [smallSet, hr.1, hr.2.1, if_false]

theorem parts_of (rs : List Request) : parts (some (.obj [("requests", .arr (rs.map listed))])) = rs := by
  have : (rs.map listed).map readRequest = rs := by
    rw [List.map_map]
    refine (List.map_congr_left fun r _ => ?_).trans (List.map_id rs)
    obtain ⟨m, q⟩ := r
    cases q <;> rfl
  exact this

theorem small_multi {rs : List Request} {j : Json} (hj : EndToEnd.Message "u" (.multi rs) j) (a : Small) :
    small.run j a = (.obj [("error_code", .num 0), ("result", .obj [("responses",
      .arr (rs.map fun r => .obj (("method", .str r.method) :: answerJson (smallAnswers a r))))])], rs.foldl (fun a r => smallSet r a) a) := by
  have := readRequest_of hj
  simp only [small, this, if_true, parts_of]

theorem small_single {r : Request} {j : Json} (hr : r.method ≠ "multipleRequest") (hj : EndToEnd.Message "u" (.single r) j) (a : Small) :
    small.run j a = (.obj (answerJson (smallAnswers a r)), smallSet r a) := by
  have : readRequest j = r := readRequest_of hj
  simp only [small, this, hr, if_false]

theorem small_reads : Reads small "u" SmallReading smallAnswers := by
  constructor
  · intro r hr j a hj
    have hm : r.method ≠ "multipleRequest" := fun h => hr (by rw [h]; decide)
    rw [small_single hm hj]
    exact ⟨answerJson_carries _, smallSet_reading hr a⟩
  · intro rs hrs j a hj
    rw [small_multi hj]
    constructor
    · show rs.foldl _ a = a
      clear hj
      induction rs with
      | nil => rfl
      | cons r rs ih =>
        rw [List.foldl_cons, smallSet_reading (hrs r (.head _))]
        exact ih fun r h => hrs r (.tail _ h)
    · refine ⟨_, rfl, ⟨_, rfl, rfl⟩, ?_⟩
      intro item hitem
      obtain ⟨r, hr, rfl⟩ := List.mem_map.1 hitem
      obtain ⟨-, h1, h2⟩ := answerJson_carries (smallAnswers a r)
      exact ⟨r, hr, rfl, ⟨_, rfl⟩, h1, h2⟩
  · intro r _ a v hv
    unfold smallAnswers at hv
    split at hv
    · cases hv; rfl
    · split at hv
      · cases hv; rfl
      · split at hv
        · cases hv; rfl
        · cases hv

theorem small_sets (m : String) (hm : m ∈ ["setLensMaskConfig", "setLedStatus"]) (q : Json) (hq : requestFor m q = ⟨m, some q⟩) :
    Sets small "u" (requestFor m q) (smallSet ⟨m, some q⟩) (.obj []) := by
  have hne : m ≠ "multipleRequest" := by rintro rfl; revert hm; decide
  have hans : ∀ a, smallAnswers a ⟨m, some q⟩ = (0, some (.obj [])) := by
    intro a
    simp only [List.mem_cons, List.not_mem_nil, or_false] at hm
    rcases hm with rfl | rfl <;> rfl
  rw [hq]
  refine ⟨?_, ?_, ?_, ?_, rfl⟩
  · rintro j a (hj | hj)
    · rw [small_single hne hj]
    · rw [small_multi hj]; rfl
  · intro a
    simp only [List.mem_cons, List.not_mem_nil, or_false] at hm
    rcases hm with rfl | rfl <;> rfl
  · intro j a hj
    rw [small_single hne hj, hans]
    exact answerJson_carries _
  · intro j a hj
    rw [small_multi hj]
    simp only [List.map_cons, List.map_nil, hans]
    exact ⟨_, _, ⟨⟨_, rfl⟩, rfl, rfl⟩, rfl, rfl, ⟨_, rfl⟩, rfl, rfl⟩

abbrev smallHave : List Switch := [.lensMask, .led]

theorem small_isCamera : IsCamera small "u" SmallReading smallAnswers smallHave smallStore := by
  refine ⟨small_reads, ?_, ?_⟩
  · intro w hw method hmem a
    simp only [smallHave, List.mem_cons, List.not_mem_nil, or_false] at hw
    rcases hw with rfl | rfl
    · have : method = "getLensMaskConfig" := by simpa [readers, home] using hmem
      subst this
      rfl
    · have : method = "getLedStatus" := by simpa [readers, home] using hmem
      subst this
      rfl
  · intro w hw method hmem on
    simp only [smallHave, List.mem_cons, List.not_mem_nil, or_false] at hw
    rcases hw with rfl | rfl
    · have : method = "setLensMaskConfig" := by simpa [writers, home] using hmem
      subst this
      refine ⟨_, _, small_sets _ (by decide) _ rfl, fun a w' hw' => ?_⟩
      simp only [smallHave, List.mem_cons, List.not_mem_nil, or_false] at hw'
      rcases hw' with rfl | rfl <;> cases on <;> rfl
    · have : method = "setLedStatus" := by simpa [writers, home] using hmem
      subst this
      refine ⟨_, _, small_sets _ (by decide) _ rfl, fun a w' hw' => ?_⟩
      simp only [smallHave, List.mem_cons, List.not_mem_nil, or_false] at hw'
      rcases hw' with rfl | rfl <;> cases on <;> rfl

theorem small_proper (j : Json) (a : Small) : JsonText.Proper (small.run j a).1 := by
  have hone : ∀ r, JsonText.Proper (.obj (answerJson (smallAnswers a r))) ∧
      JsonText.Proper (.obj (("method", .str r.method) :: answerJson (smallAnswers a r))) := by
    intro r
    unfold smallAnswers section_ onOff
    split
    · simp [answerJson, JsonText.Proper, JsonText.ProperKvs, Dict.WF, Dict.keys]
    · split
      · simp [answerJson, JsonText.Proper, JsonText.ProperKvs, Dict.WF, Dict.keys]
      · split <;> simp [answerJson, JsonText.Proper, JsonText.ProperKvs, Dict.WF, Dict.keys]
  have hb : ∀ rs : List Request, JsonText.ProperList (rs.map fun r => .obj (("method", .str r.method) :: answerJson (smallAnswers a r))) := by
    intro rs
    induction rs with
    | nil => simp [JsonText.ProperList]
    | cons r rs ih =>
      rw [List.map_cons, JsonText.ProperList]
      exact ⟨(hone r).2, ih⟩
  unfold small
  simp only
  split
  · have := hb (parts (readRequest j).params)
    simp [JsonText.Proper, JsonText.ProperKvs, Dict.WF, Dict.keys, this]
  · exact (hone _).1

abbrev smallTransport (secure : Bool) : Smart.Transport (SslAes.St (CamEndToEnd.World Small)) :=
  camTransport Crypto.toyCipher Crypto.toyHashes (network Crypto.toyCipher Crypto.toyHashes (CamEndToEnd.sampleDevice secure)
    CamEndToEnd.sampleConfig .orjson small CamEndToEnd.sampleChance) CamEndToEnd.sampleConfig .python "u" fun n => n

/-- A new protocol object for the sample camera, whose mask is off and whose LED is off; the answer to the first request gets lost. -/
abbrev smallStart : Smart.St (SslAes.St (CamEndToEnd.World Small)) := fresh CamEndToEnd.sampleConfig 5 ⟨none, none, none, (false, false), 1⟩

def bothSections : Dict String Json :=
  [("getLensMaskConfig", .obj [("lens_mask", .obj [("name", .str "lens_mask_info")])]), ("getLedStatus", .obj [("led", .obj [("name", .str "config")])])]

theorem both_read : CamReadQuery SmallReading bothSections := by
  refine ⟨⟨by unfold Dict.WF; decide, ?_, ?_⟩, by decide⟩
  · intro m q hm
    simp only [bothSections, List.mem_cons, List.not_mem_nil, or_false, Prod.mk.injEq] at hm
    rcases hm with ⟨rfl, rfl⟩ | ⟨rfl, rfl⟩ <;> simp [JsonText.Proper, JsonText.ProperKvs, Dict.WF, Dict.keys]
  · intro m q hm
    simp only [bothSections, List.mem_cons, List.not_mem_nil, or_false, Prod.mk.injEq] at hm
    rcases hm with ⟨rfl, rfl⟩ | ⟨rfl, rfl⟩
    · show "getLensMaskConfig" ∉ _; decide
    · show "getLedStatus" ∉ _; decide

theorem both_asks : AsksFor smallHave bothSections := by
  intro w hw
  simp only [smallHave, List.mem_cons, List.not_mem_nil, or_false] at hw
  rcases hw with rfl | rfl
  · exact ⟨_, rfl, by simp [bothSections, moduleName, sectionName, getter]⟩
  · exact ⟨_, rfl, by simp [bothSections, moduleName, sectionName, getter]⟩

/-- The camera is turned off, and there is a switch it does not have. -/
def smallSteps : List Step := [.set (.flip .pet true), .set (.power false)]

theorem small_steps (requests : Dict String Json) (rc : Int) (h : .read requests rc ∈ smallSteps) : CamReadQuery SmallReading requests := by
  simp [smallSteps] at h

/-- The second one returns after a retry. -/
theorem small_result : (perform (smallTransport true) (send smallHave (.power false)) smallStart).1 =
      .ok [("setLensMaskConfig", .value (.obj []))] ∧
    (perform (smallTransport true) (send smallHave (.power false)) smallStart).2.batchSize = 5 := by decide +kernel

theorem small_off : (perform (smallTransport true) (send smallHave (.power false)) smallStart).1 =
    .ok [("setLensMaskConfig", .value (.obj []))] := small_result.1

attribute [local irreducible] SmartCam.query in
/-- The theorems about this case. -/
example : ∃ P, Explains smallHave (fun _ => false) (run (smallTransport true) smallHave smallSteps smallStart).1 P := by
  obtain ⟨P, h, -⟩ := C94_switches Crypto.toyCipher Crypto.toyHashes (CamEndToEnd.sampleDevice true) .python .orjson small CamEndToEnd.sampleChance
    (some ("admin", "pw")) none ("admin", "default") "u" (fun n => n) CamEndToEnd.sampleChance_fair small_proper 5
    ⟨none, none, none, (false, false), 1⟩ SmallReading smallAnswers smallHave smallStore small_isCamera (fun _ => false)
    (by
      intro w hw
      simp only [smallHave, List.mem_cons, List.not_mem_nil, or_false] at hw
      rcases hw with rfl | rfl <;> rfl) smallSteps small_steps
  exact ⟨P, h⟩

theorem small_batch : (perform (smallTransport true) (send smallHave (.power false)) smallStart).2.batchSize = 5 := small_result.2

attribute [local irreducible] SmartCam.query in
/-- After it was turned off, it is shown off with its lens masked. -/
example (rc : Int) (r : Dict String Entry)
    (hr : (SmartCam.query (smallTransport true) (.dict bothSections) rc
      (perform (smallTransport true) (send smallHave (.power false)) smallStart).2).1 = .ok r) :
    isOn (.present false) true r = .ok false ∧ enabled .lensMask r = .ok true :=
  last_now (C94_switches Crypto.toyCipher Crypto.toyHashes (CamEndToEnd.sampleDevice true) .python .orjson small
    CamEndToEnd.sampleChance (some ("admin", "pw")) none ("admin", "default") "u" (fun n => n) CamEndToEnd.sampleChance_fair small_proper 5
    ⟨none, none, none, (false, false), 1⟩) small_isCamera (fun _ => false)
    (by
      intro w hw
      simp only [smallHave, List.mem_cons, List.not_mem_nil, or_false] at hw
      rcases hw with rfl | rfl <;> rfl) (.power false) _ small_off bothSections both_read both_asks rc r hr
    (fun h => absurd (small_batch.symm.trans h) (by decide)) (by decide)

/-- Such a query does return. -/
example : (SmartCam.query (smallTransport true) (.dict bothSections) 3
    (fresh CamEndToEnd.sampleConfig 5 ⟨none, none, none, (true, false), 7⟩)).1.toOption.map (fun r => (enabled .lensMask r, enabled .led r,
      isOn (.present false) true r)) = some (.ok true, .ok false, .ok false) := by decide +kernel

/-- A camera object with the lens mask module, which has read "off" before. -/
def oldCamera : SmartDevice.World :=
  let asks : SmartDevice.Request := [("getLensMaskConfig", .obj [("lens_mask", .obj [("name", .str "lens_mask_info")])])]
  let mod : SmartDevice.Mod := ⟨CamDevice.Example.cls "LensMask" "lensMask" ["getLensMaskConfig"] true 0, asks, SmartModule.fresh⟩
  let last : SmartDevice.Answers := [("getLensMaskConfig", .value (section_ "lens_mask" "lens_mask_info" false))]
  ⟨{ SmartDevice.newDev with time := some 0, last := last, mods := [("LensMask", mod)] }, [], ⟨[], 0⟩, 1⟩

def maskRequest : Dict String Json := [("getLensMaskConfig", .obj [("lens_mask", .obj [("name", .str "lens_mask_info")])])]

/-- Setting the mask, when nothing is lost. -/
def maskSet : Except Exc (Dict String Entry) × Smart.St (SslAes.St (CamEndToEnd.World Small)) :=
  SmartCam.query (smallTransport true) (.dict [("setLensMaskConfig", section_ "lens_mask" "lens_mask_info" true)]) 3
    (fresh CamEndToEnd.sampleConfig 5 ⟨none, none, none, (false, false), 7⟩)

theorem maskSet_result : maskSet.1 = .ok [("setLensMaskConfig", .value (.obj []))] ∧ maskSet.2.batchSize ≠ 1 ∧
    (SmartCam.query (smallTransport true) (.dict maskRequest) 3 maskSet.2).1 =
      .ok [("getLensMaskConfig", .value (section_ "lens_mask" "lens_mask_info" true))] := by decide +kernel

theorem maskSet_ok : maskSet.1 = .ok [("setLensMaskConfig", .value (.obj []))] := maskSet_result.1
theorem maskSet_batch : maskSet.2.batchSize ≠ 1 := maskSet_result.2.1

/-- The protocol object when it queries. -/
def atQuery (n : Nat) : Smart.St (SslAes.St (CamEndToEnd.World Small)) :=
  if n = 0 then maskSet.2 else (SmartCam.query (smallTransport true) (.dict maskRequest) 3 maskSet.2).2

def smallEnv : CamDevice.CamEnv :=
  ⟨⟨fun n _ req => (SmartCam.query (smallTransport true) (.dict req) 3 (atQuery n)).1, fun n => 100 + n, SmartDevice.Example.reg, fun _ => true⟩,
    CamDevice.Example.camClasses⟩

theorem small_request : SmartDevice.requestOf false (smallEnv.base.clock oldCamera.net.ticks) oldCamera.dev = maskRequest := by decide +kernel

theorem small_answer : (SmartCam.query (smallTransport true) (.dict maskRequest) 3 maskSet.2).1 =
    .ok [("getLensMaskConfig", .value (section_ "lens_mask" "lens_mask_info" true))] := maskSet_result.2.2

/-- The same surroundings, with the first answer written out. -/
def plainEnv : CamDevice.CamEnv :=
  ⟨{ smallEnv.base with
      answer := fun n id req =>
        if n = 0 ∧ req = maskRequest then .ok [("getLensMaskConfig", .value (section_ "lens_mask" "lens_mask_info" true))]
        else smallEnv.base.answer n id req }, smallEnv.classes⟩

theorem atQuery_zero : atQuery 0 = maskSet.2 := if_pos rfl

theorem smallEnv_answer (n : Nat) (id : Option String) (req : SmartDevice.Request) :
    smallEnv.base.answer n id req = (SmartCam.query (smallTransport true) (.dict req) 3 (atQuery n)).1 := rfl

theorem smallEnv_eq : smallEnv = plainEnv := by
  have : smallEnv.base.answer = fun n id req =>
      if n = 0 ∧ req = maskRequest then .ok [("getLensMaskConfig", .value (section_ "lens_mask" "lens_mask_info" true))]
      else smallEnv.base.answer n id req := by
    funext n id req
    by_cases h : n = 0 ∧ req = maskRequest
    · rw [if_pos h, h.1, h.2, smallEnv_answer, atQuery_zero, small_answer]
    · rw [if_neg h]
  unfold plainEnv
  rw [← this]

/-- The camera object shows the mask on, although there is no device information and the update raises. -/
theorem small_update : (CamDevice.update smallEnv true true oldCamera).2.dev.last =
      [("getLensMaskConfig", .value (section_ "lens_mask" "lens_mask_info" true))] ∧
    (CamDevice.update smallEnv true true oldCamera).2.net.asked = [(none, maskRequest)] := by
  rw [smallEnv_eq]
  decide +kernel

theorem mask_read : CamReadQuery SmallReading maskRequest := by
  refine ⟨⟨by unfold Dict.WF; decide, ?_, ?_⟩, by decide⟩
  · intro m q hm
    exact both_read.proper m q (by cases hm with | head => exact .head _ | tail _ h => cases h)
  · intro m q hm
    exact both_read.reads m q (by cases hm with | head => exact .head _ | tail _ h => cases h)

attribute [local irreducible] SmartCam.query CamDevice.update in
/-- `C94_update_shows` about this case. -/
example : ∀ k q, (k, q) ∈ SmartDevice.requestOf false (smallEnv.base.clock oldCamera.net.ticks) oldCamera.dev →
    Dict.get? (CamDevice.update smallEnv true true oldCamera).2.dev.last k =
      some (SmartSpec.entryFor (smallAnswers (smallSet ⟨"setLensMaskConfig", some (section_ "lens_mask" "lens_mask_info" true)⟩ (false, false)) (requestFor k q))) ∨
    Dict.get? (CamDevice.update smallEnv true true oldCamera).2.dev.last k = some (.error (-100001)) := by
  refine (C94_update_shows Crypto.toyCipher Crypto.toyHashes (CamEndToEnd.sampleDevice true) .python .orjson small CamEndToEnd.sampleChance
    (some ("admin", "pw")) none ("admin", "default") "u" (fun n => n) CamEndToEnd.sampleChance_fair small_proper 5
    ⟨none, none, none, (false, false), 7⟩ SmallReading smallAnswers small_reads [] (fun _ h => (nomatch h)) "setLensMaskConfig"
    (section_ "lens_mask" "lens_mask_info" true) (by unfold Plain; decide) (proper_setting .lensMask true) _ _ (small_sets _ (by decide) _ rfl) 3 3 _
    (show maskSet.1 = .ok [("setLensMaskConfig", .value (.obj []))] from maskSet_ok) smallEnv atQuery oldCamera true 0 rfl rfl
    (by unfold Dict.WF; decide +kernel) ?_ ?_ ⟨fun _ _ => smallEnv_answer _ _ _, ?_⟩ atQuery_zero maskSet_batch).1
  · rw [small_request]
    exact mask_read
  · rw [small_request]
    intro e he
    rw [show oldCamera.net.asked.length = 0 from rfl, smallEnv_answer, atQuery_zero, small_answer] at he
    cases he
  · rw [small_update.2]
    intro n req hreq
    match n, hreq with
    | 0, h =>
      obtain rfl := (Prod.mk.inj (Option.some.inj h)).2
      rw [atQuery_zero]
      exact if_neg (by decide)
    | n + 1, h => cases h

end Kasa.CamNetwork
