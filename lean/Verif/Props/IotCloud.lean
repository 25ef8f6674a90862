import Verif.Spec.IotCloud
/-!
# C106: the cloud module of legacy devices
-/

namespace Kasa.IotCloud

open Spec Ops

theorem field_ok (d : List (String × Json)) (k : String) (v : Json) (h : Dict.get? d k = some v) : field (.obj d) k = .ok v := by
  simp only [field, getOpt, h]

theorem field_missing (d : List (String × Json)) (k : String) (h : Dict.get? d k = none) : field (.obj d) k = .error (.other "MissingField") := by
  simp only [field, getOpt, h]

theorem intField_ok (d : List (String × Json)) (k : String) (n : Int) (h : Dict.get? d k = some (.num n)) : intField (.obj d) k = .ok n := by
  simp only [intField, field_ok d k _ h]

theorem intField_missing (d : List (String × Json)) (k : String) (h : Dict.get? d k = none) :
    intField (.obj d) k = .error (.other "MissingField") := by
  simp only [intField, field_missing d k h]

/-- C106: a device is shown as connected to the cloud exactly if it reports so. -/
theorem C106_connected (d : List (String × Json)) (connected : Bool) (h : Reports d connected) (data : List (String × Json))
    (hd : Dict.get? data "get_info" = some (.obj d)) :
    isConnected (.obj data) = .ok connected ∧ ∃ i, info (.obj data) = .ok i ∧ Dict.get? d "username" = some i.username ∧
      Dict.get? d "server" = some i.server ∧ Dict.get? d "binded" = some (.num i.provisioned) := by
  obtain ⟨n1, h1⟩ := h.numbers "binded" (by simp)
  obtain ⟨n2, h2⟩ := h.numbers "fwNotifyType" (by simp)
  obtain ⟨n3, h3⟩ := h.numbers "illegalType" (by simp)
  obtain ⟨n4, h4⟩ := h.numbers "stopConnect" (by simp)
  obtain ⟨n5, h5⟩ := h.numbers "tcspStatus" (by simp)
  obtain ⟨s1, g1⟩ := h.texts "fwDlPage" (by simp)
  obtain ⟨s2, g2⟩ := h.texts "server" (by simp)
  obtain ⟨s3, g3⟩ := h.texts "tcspInfo" (by simp)
  obtain ⟨s4, g4⟩ := h.texts "username" (by simp)
  have hi : info (.obj data) = .ok ⟨n1, if connected then 1 else 0, .str s1, n2, n3, .str s2, n4, .str s3, n5, .str s4⟩ := by
    simp only [info, item, hd, Except.bind, fromDict, intField_ok d _ _ h1, intField_ok d _ _ h.connection, field_ok d _ _ g1, intField_ok d _ _ h2,
      intField_ok d _ _ h3, field_ok d _ _ g2, intField_ok d _ _ h4, field_ok d _ _ g3, intField_ok d _ _ h5, field_ok d _ _ g4]
    rfl
  refine ⟨?_, _, hi, g4, g2, h1⟩
  unfold isConnected
  rw [hi]
  cases connected <;> rfl

/-- C106 is false of devices that do not report every one of the ten fields: whether they are connected cannot be read. -/
theorem C106_fields_counterexample (d : List (String × Json)) (k : String) (hk : k ∈ fields) (h : Dict.get? d k = none)
    (data : List (String × Json)) (hd : Dict.get? data "get_info" = some (.obj d)) : ∃ e, isConnected (.obj data) = .error e := by
  cases hc : isConnected (.obj data) with
  | error e => exact ⟨e, rfl⟩
  | ok b =>
    exfalso
    unfold isConnected at hc
    cases hi : info (.obj data) with
    | error e => rw [hi] at hc; cases hc
    | ok i =>
      simp only [info, item, hd, Except.bind, fromDict] at hi
      have step : ∀ {α β : Type} {x : Except Exc α} {f : α → Except Exc β} {y : β}, (x >>= f) = .ok y → ∃ a, x = .ok a ∧ f a = .ok y := by
        intro α β x f y hx
        cases x with
        | error e => cases hx
        | ok a => exact ⟨a, rfl, hx⟩
      obtain ⟨_, x1, hi⟩ := step hi
      obtain ⟨_, x2, hi⟩ := step hi
      obtain ⟨_, x3, hi⟩ := step hi
      obtain ⟨_, x4, hi⟩ := step hi
      obtain ⟨_, x5, hi⟩ := step hi
      obtain ⟨_, x6, hi⟩ := step hi
      obtain ⟨_, x7, hi⟩ := step hi
      obtain ⟨_, x8, hi⟩ := step hi
      obtain ⟨_, x9, hi⟩ := step hi
      obtain ⟨_, x10, hi⟩ := step hi
      have hf := field_missing d k h
      have hn := intField_missing d k h
      simp only [fields, List.mem_cons, List.not_mem_nil, or_false] at hk
      rcases hk with rfl | rfl | rfl | rfl | rfl | rfl | rfl | rfl | rfl | rfl
      · rw [hn] at x1; cases x1
      · rw [hn] at x2; cases x2
      · rw [hf] at x3; cases x3
      · rw [hn] at x4; cases x4
      · rw [hn] at x5; cases x5
      · rw [hf] at x6; cases x6
      · rw [hn] at x7; cases x7
      · rw [hf] at x8; cases x8
      · rw [hn] at x9; cases x9
      · rw [hf] at x10; cases x10

/-- C106, the operations: what they return is a request that does what is meant when it is sent.  This is partial: nothing sends it. -/
theorem C106_requests_partial (target : String) (a : Account) (op : Op) : obey target a (run target op a).1 = meant a op := by
  cases op <;> simp [run, IotSetup.request, Iot.createRequest, obey, Json.get?, Dict.get?, meant]

/-- C106 is false of the operations: connecting a device to an account, disconnecting it and setting its server leave the device as it
was, whatever it was. -/
theorem C106_nothing_sent_counterexample (target : String) (a : Account) (op : Op) (h : meant a op ≠ a) : (run target op a).2 ≠ meant a op := by
  intro hx
  apply h
  rw [← hx]
  cases op <;> rfl

/-! Cases. -/

/-- What a plug reports. -/
def sampleInfo : List (String × Json) :=
  [("binded", .num 1), ("cld_connection", .num 1), ("fwDlPage", .str ""), ("fwNotifyType", .num (-1)), ("illegalType", .num 0),
   ("server", .str "n-devs.tplinkcloud.com"), ("stopConnect", .num 0), ("tcspInfo", .str ""), ("tcspStatus", .num 1), ("username", .str "user@example.com")]

example : Reports sampleInfo true := by
  refine ⟨?_, ?_, rfl⟩ <;>
    (intro k hk; simp only [List.mem_cons, List.not_mem_nil, or_false] at hk; rcases hk with rfl | rfl | rfl | rfl | rfl <;> exact ⟨_, rfl⟩)
example : meant ⟨none, "s"⟩ (.connect "user" "secret") ≠ ⟨none, "s"⟩ := by decide +kernel
example : "username" ∈ fields ∧ Dict.get? (sampleInfo.dropLast) "username" = none := by decide +kernel

end Kasa.IotCloud
