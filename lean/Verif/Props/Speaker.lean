import Verif.Spec.Speaker
/-!
# C67: the speaker
-/

namespace Kasa.Speaker

open SpeakerSpec Thermostat Setters

theorem setVolume_ok (x : Num) (h : InRange x 0 100) : setVolume x = .ok (call "setVolume" [("volume", .num x)]) := by
  unfold setVolume
  rw [(refuseOutside_ok_iff x 0 100 (.other "ValueError")).2 (.inr h)]
  rfl

theorem setVolume_error (x : Num) (h1 : x ≠ .nan) (h2 : ¬ InRange x 0 100) :
    ∃ e, setVolume x = .error e ∧ (x.isNumber = true → e = .other "ValueError") := by
  obtain ⟨e, he, hn⟩ := refuseOutside_error (e := .other "ValueError") h1 h2
  exact ⟨e, by unfold setVolume; rw [he]; rfl, hn⟩

/-- C67: a volume outside of 0 to 100 is refused with `ValueError`, and nothing is sent; others are sent as they are.  This is partial:
NaN is left out, as it is sent. -/
theorem C67_volume_partial (x : Num) (h : x.isNumber = true) (hn : x ≠ .nan) :
    (InRange x 0 100 → ∃ c, setVolume x = .ok c ∧ c.params = [("volume", .num x)]) ∧
      (¬ InRange x 0 100 → setVolume x = .error (.other "ValueError")) := by
  refine ⟨fun hr => ⟨_, setVolume_ok x hr, rfl⟩, fun hr => ?_⟩
  obtain ⟨e, he, hv⟩ := setVolume_error x hn hr
  rw [he, hv h]

/-- C67: NaN is sent as a volume. -/
theorem C67_volume_nan_counterexample : setVolume .nan = .ok (call "setVolume" [("volume", .num .nan)]) := rfl

/-- C67: after any history of setting the volume and locating the vacuum, an update shows the volume that was accepted last, and the
vacuum has made itself heard once for every time it was to be located; nothing else it tells changes. -/
theorem C67_speaker (v : Vacuum) (start : Num) (ops : List Op) (h : volume v.data = .ok (.num start)) (hn : Op.volume .nan ∉ ops) :
    volume (ops.foldl Vacuum.step v).data = .ok (.num (lastVolume start ops)) ∧
      (ops.foldl Vacuum.step v).heard = v.heard + located ops ∧
      ∀ k, k ≠ "volume" → Dict.get? (ops.foldl Vacuum.step v).data k = Dict.get? v.data k := by
  induction ops generalizing v start with
  | nil => exact ⟨h, rfl, fun _ _ => rfl⟩
  | cons op ops ih =>
    have hn' : Op.volume .nan ∉ ops := fun hx => hn (List.mem_cons_of_mem _ hx)
    cases op with
    | locate =>
      have hs : v.step .locate = { v with heard := v.heard + 1 } := rfl
      rw [List.foldl_cons, hs]
      obtain ⟨h1, h2, h3⟩ := ih { v with heard := v.heard + 1 } start h hn'
      exact ⟨h1, by rw [h2]; simp only [located]; omega, h3⟩
    | volume x =>
      rw [List.foldl_cons]
      by_cases hr : InRange x 0 100
      · have hs : v.step (.volume x) = { v with data := Dict.set v.data "volume" (.num x) } := by
          simp only [Vacuum.step, setVolume_ok x hr]
          rfl
        rw [hs]
        obtain ⟨h1, h2, h3⟩ := ih { v with data := Dict.set v.data "volume" (.num x) } x (by
          simp only [volume, item, Dict.get?_set, if_true]) hn'
        refine ⟨?_, h2, fun k hk => ?_⟩
        · rw [h1, lastVolume, if_pos hr]
        · rw [h3 k hk, Dict.get?_set, if_neg (Ne.symm hk)]
      · obtain ⟨e, he, _⟩ := setVolume_error x (fun hx => hn (by rw [hx]; exact List.mem_cons_self ..)) hr
        have hs : v.step (.volume x) = v := by
          simp only [Vacuum.step, he]
        rw [hs]
        obtain ⟨h1, h2, h3⟩ := ih v start h hn'
        refine ⟨?_, h2, h3⟩
        rw [h1, lastVolume, if_neg hr]

/-! Cases. -/

example : volume [("volume", .num (.int 84))] = .ok (.num (.int 84)) ∧ setVolume (.int 101) = .error (.other "ValueError") ∧
    setVolume (.int (-1)) = .error (.other "ValueError") := ⟨rfl, rfl, rfl⟩
example : InRange (.int 100) 0 100 := ⟨100, rfl, by decide, by decide⟩
example : (Vacuum.step ⟨[("volume", .num (.int 84))], 0⟩ .locate).heard = 1 := rfl

end Kasa.Speaker
