import Verif.Lemmas.CamDevice
import Verif.Props.SmartDevice
import Verif.Props.CamDevice
/-!
# C33 for cameras: one failing module query does not lose the others
-/

namespace Kasa.CamDevice
open PyM SmartDevice

theorem cam_takeInfo_last (first : Bool) (resp : Answers) (l : Local) :
    (takeInfo first resp l).2.dev.last = l.dev.last ∧ (takeInfo first resp l).2.net = l.net ∧ (takeInfo first resp l).2.dev.mods = l.dev.mods := by
  unfold takeInfo
  cases infoFrom (if first then l.dev.last else resp) <;> exact ⟨rfl, rfl, rfl⟩

theorem cam_modularUpdate_last (c : CamEnv) (first : Bool) (t : Rat) (l l1 : Local) (resp : Answers) (hwf : Dict.WF l.dev.mods)
    (h : askModules c.base (requestOf first t l.dev) (marked first t l) = (.ok resp, l1)) :
    (modularUpdate c first t l).2.dev.last = Dict.update l.dev.last resp ∧ (modularUpdate c first t l).2.net = l1.net := by
  have hd := (askModules_dev c.base (requestOf first t l.dev) (marked first t l)).1
  rw [h] at hd
  simp only at hd
  have hl : (stored l1 resp).dev.last = Dict.update l.dev.last resp := by
    unfold stored
    rw [hd]
    rfl
  have hw : Dict.WF (stored l1 resp).dev.mods := by
    change Dict.WF l1.dev.mods
    rw [hd]
    exact marked_wf first t l hwf
  have hu : modularUpdate c first t l =
      (takeInfo first resp >>= fun _ => postAll t (fun n => (dueNames first t l.dev).contains n)) (stored l1 resp) := by
    have h1 : modifyDev (markPreloaded first t) l = (.ok (), marked first t l) := rfl
    unfold modularUpdate
    rw [bind_ok (get_apply l), bind_ok h1, bind_ok h]
    rfl
  rw [hu, bind_apply]
  have ht := cam_takeInfo_last first resp (stored l1 resp)
  cases htk : takeInfo first resp (stored l1 resp) with
  | mk r l3 =>
    rw [htk] at ht
    cases r with
    | error e => exact ⟨ht.1.trans hl, ht.2.1⟩
    | ok u =>
      simp only at ht ⊢
      cases hp : postAll t (fun n => (dueNames first t l.dev).contains n) l3 with
      | mk r l4 =>
        obtain ⟨hs, _, _⟩ := postAll_spec _ _ _ (ht.2.2 ▸ hw) _ _ hp
        exact ⟨hs.last.trans (ht.1.trans hl), hs.net.trans ht.2.1⟩

theorem cam_own_ready (c : CamEnv) (w : World) (u : Rat) (h : w.dev.time = some u) :
    ownUpdate c ⟨w.dev, none, w.net⟩ = modularUpdate c false (c.base.clock w.net.ticks) (ready c.base w) := by
  unfold ownUpdate
  rw [bind_ok (get_apply _), h]
  rfl

theorem cam_update_own (c : CamEnv) (kids : Bool) (w : World) :
    Rest { w with dev := (ownUpdate c ⟨w.dev, none, w.net⟩).2.dev, net := (ownUpdate c ⟨w.dev, none, w.net⟩).2.net } (update c true kids w).2 := by
  have h0 : update c true kids w = (onDev (ownUpdate c) >>= fun _ => updateChildrenInfo c >>= fun changed =>
      updateKidsIf c (changed || kids) >>= fun _ => onDev initFeatures) w := rfl
  have h1 : onDev (ownUpdate c) w = ((ownUpdate c ⟨w.dev, none, w.net⟩).1,
      { w with dev := (ownUpdate c ⟨w.dev, none, w.net⟩).2.dev, net := (ownUpdate c ⟨w.dev, none, w.net⟩).2.net }) := rfl
  rw [h0]
  cases hr : (ownUpdate c ⟨w.dev, none, w.net⟩).1 with
  | error e =>
    rw [hr] at h1
    rw [bind_error h1]
    exact Rest.refl _
  | ok u =>
    rw [hr] at h1
    rw [bind_ok h1]
    exact Rel.bind Rest.trans (rest_childrenInfo c) (fun _ => Rel.bind Rest.trans (rest_updateKids c _) fun _ => rest_features) _

/-- C33 for cameras: when the combined query of an update raises, each method is asked for alone, in order; whatever happens afterwards,
the camera object then holds for each of these methods its outcome, and for all others what it held before. -/
theorem C33_cam_fallback (c : CamEnv) (w : World) (kids : Bool) (u : Rat) (hold : w.dev.time = some u) (hwf : Dict.WF w.dev.mods)
    (req : Request) (hreq : req = requestOf false (c.base.clock w.net.ticks) w.dev) (e : Exc)
    (hf : c.base.answer w.net.asked.length w.dev.id req = .error e) (he : e.isException = true)
    (hx : ∀ (i : Nat) (p : String × Json), req[i]? = some p →
      ∀ e, c.base.answer (w.net.asked.length + 1 + i) w.dev.id [p] = .error e → e.isException = true) :
    (∃ more, (update c true kids w).2.net.asked = w.net.asked ++ (w.dev.id, req) :: req.map (fun p => (w.dev.id, [p])) ++ more) ∧
    (∀ (i : Nat) (p : String × Json), req[i]? = some p →
      Dict.get? (update c true kids w).2.dev.last p.1 = some (outcome (c.base.answer (w.net.asked.length + 1 + i) w.dev.id [p]) p.1)) ∧
    (∀ k, k ∉ Dict.keys req → Dict.get? (update c true kids w).2.dev.last k = Dict.get? w.dev.last k) := by
  subst hreq
  have hrest := cam_update_own c kids w
  rw [cam_own_ready c w u hold] at hrest
  obtain ⟨r, hr, hrw, hno, hyes⟩ := askModules_fallback c.base (requestOf false (c.base.clock w.net.ticks) w.dev) (request_wf _ _ _)
    (ready c.base w) e hf he hx
  have hr' : askModules c.base (requestOf false (c.base.clock w.net.ticks) (ready c.base w).dev)
      (marked false (c.base.clock w.net.ticks) (ready c.base w)) =
      (.ok r, asked (ready c.base w) (requestOf false (c.base.clock w.net.ticks) w.dev ::
        (requestOf false (c.base.clock w.net.ticks) w.dev).map (fun p => [p]))) := by
    rw [marked_ready, request_ready]
    exact hr
  obtain ⟨hl, hn⟩ := cam_modularUpdate_last c false (c.base.clock w.net.ticks) (ready c.base w) _ r hwf hr'
  have hlast := hrest.last.trans hl
  refine ⟨?_, ?_, ?_⟩
  · obtain ⟨⟨more, hm⟩, _⟩ := hrest.net
    refine ⟨more, ?_⟩
    rw [hm]
    change (modularUpdate c false (c.base.clock w.net.ticks) (ready c.base w)).2.net.asked ++ more = _
    rw [hn]
    simp [asked, ready, Function.comp_def]
  · intro i p hp
    rw [hlast, Dict.get?_update hrw, hyes i p hp]
    rfl
  · intro k hk
    rw [hlast, Dict.get?_update hrw, hno k hk]
    rfl

/-- C33 for cameras: when the combined query works, the camera object holds its answers. -/
theorem C33_cam_combined (c : CamEnv) (w : World) (kids : Bool) (u : Rat) (hold : w.dev.time = some u) (hwf : Dict.WF w.dev.mods)
    (resp : Answers) (hresp : Dict.WF resp)
    (hok : c.base.answer w.net.asked.length w.dev.id (requestOf false (c.base.clock w.net.ticks) w.dev) = .ok resp) (k : String) :
    Dict.get? (update c true kids w).2.dev.last k = (Dict.get? resp k).or (Dict.get? w.dev.last k) := by
  have hrest := cam_update_own c kids w
  rw [cam_own_ready c w u hold] at hrest
  have hr' : askModules c.base (requestOf false (c.base.clock w.net.ticks) (ready c.base w).dev)
      (marked false (c.base.clock w.net.ticks) (ready c.base w)) =
      (.ok resp, asked (ready c.base w) [requestOf false (c.base.clock w.net.ticks) w.dev]) := by
    rw [marked_ready, request_ready]
    exact askModules_ok c.base _ _ _ hok
  obtain ⟨hl, _⟩ := cam_modularUpdate_last c false (c.base.clock w.net.ticks) (ready c.base w) _ resp hwf hr'
  rw [hrest.last.trans hl, Dict.get?_update hresp]
  rfl

/-! ## Examples -/

namespace Example

/-- From the second update on combined queries fail, and so does asking for the LED. -/
def flaky : CamEnv :=
  { env with base := { env.base with answer := fun n id req =>
      if n ≥ once.net.asked.length && (decide (req.length ≥ 2) || Dict.has req "getLedStatus") then .error .timeout else env.base.answer n id req } }

/-- The hypotheses of `C33_cam_fallback` hold in the second update, and this is what it does. -/
example : once.dev.time.isSome = true ∧ Dict.WF once.dev.mods ∧ requestOf false (flaky.base.clock once.net.ticks) once.dev =
    [("getDeviceInfo", .null), ("getChildDeviceList", .null), ("getChildDeviceComponentList", .null), ("getLedStatus", .null)] ∧
    flaky.base.answer once.net.asked.length once.dev.id (requestOf false (flaky.base.clock once.net.ticks) once.dev) = .error .timeout := by
  unfold Dict.WF
  decide +kernel
example : Dict.get? (update flaky true false once).2.dev.last "getLedStatus" = some (.error (-100001)) ∧
    Dict.get? (update flaky true false once).2.dev.last "getDeviceInfo" = some (device "getDeviceInfo") := by decide +kernel
example : (env.base.answer once.net.asked.length once.dev.id (requestOf false (env.base.clock once.net.ticks) once.dev)).isOk = true := by decide +kernel

end Example

end Kasa.CamDevice
