import Verif.Props.SslEndToEnd
import Verif.Lemmas.Heals
/-!
# C87: setters over the HTTPS transport after failures
-/

namespace Kasa.SslEndToEnd
open PyM Ssl
open EndToEnd

section
variable {α : Type} (owner : Json) (lib lib' : JsonText.Lib) (p : Program α) (x : Chance) (cfg : Config) (uuid : String) (time : Nat → Int)

theorem heals {n : Nat} (hc : x.CalmFrom n) (ho : x.Recognises owner cfg) (hp : ∀ j a, JsonText.Proper (p.run j a).1) (hs : Successful p) :
    Heals (sslTransport (network owner lib' p x) cfg lib uuid time) p uuid (fun e => ∃ k, e = .auth k) (fun s => n ≤ s.world.count)
      (fun s => n ≤ s.world.count) (Steady n) fun s => s.world.state := by
  have hstate : ∀ {j : Json} {s s' : St (World α)} {res}, Ssl.send (network owner lib' p x) cfg (utf8 (JsonText.dumps lib j)) s = (res, s') →
      s'.world.state = (p.run j s.world.state).2 ∧
          (SslSpec.successful (p.run j s.world.state).1 = true → res = .ok (p.run j s.world.state).1) →
      res = .ok (p.run j s.world.state).1 ∧ s'.world.state = (p.run j s.world.state).2 := fun _ h => ⟨h.2 (hs _ _), h.1⟩
  refine ⟨?_, ?_, ?_, fun e ⟨k, he⟩ => he ▸ trivial⟩
  · intro w hw s hn
    obtain ⟨res, s', h1, h2, h3⟩ := send_calm owner lib lib' p x cfg hc ho hp _ (proper_wire uuid (time s.world.count) w hw) s hn
    refine ⟨_, res, s', message_wire uuid (time s.world.count) w, h1, h2.1, ?_⟩
    rcases h3 with h3 | ⟨-, h4, k, h5⟩
    · exact .inl (hstate h1 h3)
    · exact .inr ⟨_, h5, .inr ⟨k, rfl⟩, h4⟩
  · intro w hw s hst
    obtain ⟨res, s', h1, h2, h3⟩ := send_calm owner lib lib' p x cfg hc ho hp _ (proper_wire uuid (time s.world.count) w hw) s hst.1
    rcases h3 with h3 | ⟨h4, -⟩
    · obtain ⟨rfl, h5⟩ := hstate h1 h3
      exact ⟨_, s', message_wire uuid (time s.world.count) w, h1, h5⟩
    · exact absurd hst h4
  · intro s hn
    exact ⟨(reset s).2, rfl, ⟨hn, fun h => nomatch h⟩, rfl⟩

/-- **C87, HTTPS, setters after failures.** After any queries, with whatever failures, once nothing goes wrong any more: a query that sets
something, with at least one retry, returns and has set it; or it raises that it is not authenticated, with nothing changed, and then the
same query, made again, returns and has set it. -/
theorem C87_https_recovers (ho : x.Recognises owner cfg) (hp : ∀ j a, JsonText.Proper (p.run j a).1) (hs : Successful p) (m : String) (q : Json)
    (hq : JsonText.Proper q) {f : α → α} {v : Json} (hset : Sets p uuid (SmartSpec.requestFor m q) f v) (before : List (Smart.Query × Int))
    (rc : Nat) (hrc : 1 ≤ rc) (batch : Nat) (w : World α) :
    let t := sslTransport (network owner lib' p x) cfg lib uuid time
    let s := queries t before (fresh batch w)
    let out := Smart.query t (.dict [(m, q)]) rc s
    x.CalmFrom s.world.world.count →
    (out.1 = .ok [(m, .value v)] ∧ out.2.world.world.state = f s.world.world.state) ∨
      ((∃ k, out.1 = .error (.auth k)) ∧ out.2.world.world.state = s.world.world.state ∧ ∀ rc' : Nat,
        let again := Smart.query t (.dict [(m, q)]) rc' out.2
        again.1 = .ok [(m, .value v)] ∧ again.2.world.world.state = f s.world.world.state) := by
  intro t s out hc
  obtain ⟨rc, rfl⟩ : ∃ r, rc = r + 1 := ⟨rc - 1, by omega⟩
  exact ((heals owner lib lib' p x cfg uuid time hc ho hp hs).setter m q hq hset rc s (Nat.le_refl _)).imp_right fun ⟨⟨_, ⟨k, hk⟩, h⟩, h'⟩ => ⟨⟨k, hk ▸ h⟩, h'⟩

end

/-! ## Examples -/

/-- A device that keeps what it is given. -/
def obeying : Program Json where
  run j a := (.obj [("error_code", .num 0), ("result", .obj [])], (j.get? "params").getD a)

theorem obeying_proper (j a : Json) : JsonText.Proper (obeying.run j a).1 := by
  simp [obeying, JsonText.Proper, JsonText.ProperKvs, Dict.WF, Dict.keys]

theorem obeying_successful : Successful obeying := fun _ _ => rfl

theorem obeying_sets (m : String) (q : Json) (hq : q.truthy = true) :
    Sets obeying "u" (SmartSpec.requestFor m q) (fun _ => q) (.obj []) := by
  have hr : SmartSpec.requestFor m q = ⟨m, some q⟩ := by unfold SmartSpec.requestFor; rw [if_pos hq]
  rw [hr]
  refine ⟨?_, fun _ => rfl, fun j a _ => ⟨⟨_, rfl⟩, rfl, rfl⟩, rfl⟩
  rintro j a ⟨-, h2, -⟩
  simp only [obeying]
  rw [h2]
  rfl

/-- While the device restarts, the second request cannot be delivered. -/
def roughChance : Chance := { sampleChance with fate := fun n => if n = 4 then .lost (.error .connection) else .fine, restart := fun n => n = 4 }

theorem roughChance_calm : roughChance.CalmFrom 5 := by
  refine ⟨fun k hk => ?_, fun k hk => ?_, fun k _ => ?_, fun k _ => ⟨rfl, ?_⟩⟩
  · show (if k = 4 then _ else _) = _
    rw [if_neg (by omega)]
  · show decide (k = 4) = false
    exact decide_eq_false (by omega)
  · simp [roughChance, sampleChance, JsonText.Proper]
  · exact (sampleChance_calm.refusal 7 (Nat.le_refl _)).2

abbrev obeyingTransport : Smart.Transport (St (World Json)) :=
  sslTransport (network (.str "user") .orjson obeying roughChance) sampleConfig .python "u" fun n => n

def roughQueries : List (Smart.Query × Int) := [(.dict [("set", .num 1)], 0), (.dict [("set", .num 2)], 0)]

theorem rough_count : (queries obeyingTransport roughQueries (fresh 5 ⟨none, .null, 0⟩)).world.world.count = 5 := by decide +kernel

theorem roughChance_recognises : roughChance.Recognises (.str "user") sampleConfig := fun h => absurd rfl h

example := C87_https_recovers (.str "user") .python .orjson obeying roughChance sampleConfig "u" (fun n => n)
  roughChance_recognises obeying_proper obeying_successful "set" (.num 5) (by simp [JsonText.Proper])
  (obeying_sets "set" (.num 5) rfl) roughQueries 3 (by decide) 5 ⟨none, .null, 0⟩ (by rw [rough_count]; exact roughChance_calm)

/-- The second case does occur: the session is gone, which is reported, retries or not; then it works. -/
theorem rough_refused : (Smart.query obeyingTransport (.dict [("set", .num 5)]) 3
    (queries obeyingTransport roughQueries (fresh 5 ⟨none, .null, 0⟩))).1 = .error (.auth (some (-1005))) := by decide +kernel

end Kasa.SslEndToEnd
