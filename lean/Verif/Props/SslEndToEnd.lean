import Verif.Spec.SslEndToEnd
import Verif.Lemmas.Ssl
import Verif.Lemmas.Faithful
/-!
# C85: requests over the HTTPS transport are carried out at most once
-/

namespace Kasa.SslEndToEnd
open EndToEnd Ssl PyM

section
variable {α : Type} (owner : Json) (lib lib' : JsonText.Lib) (p : Program α) (x : Chance) (cfg : Config)

theorem delivered_eq {v : Json} (h : JsonText.Proper v) : delivered lib v = (200, v) := by
  unfold delivered
  rw [JsonText.loads_dumps lib v h]
  rfl

/-- A login does not concern the program. -/
theorem exchange_login (url : Url) (params : Json) (w : World α) :
    (exchange owner lib p x url (.login params) w).2.state = w.state := by
  have hh : ∀ w : World α, (handle owner lib p x url (.login params) w).2.state = w.state := by
    intro w
    simp only [handle]
    split <;> rfl
  unfold exchange
  simp only
  cases x.restart w.count <;> simp only [Bool.false_eq_true, if_false, if_true] <;> split <;> simp [hh]

/-- A request which gets a successful answer was carried out once; others at most once. -/
theorem exchange_request (hx : x.Fair) (hp : ∀ j a, JsonText.Proper (p.run j a).1) (url : Url) (j : Json)
    (hj : JsonText.Proper j) (w : World α) :
    let r := exchange owner lib' p x url (.request (utf8 (JsonText.dumps lib j))) w
    ((r.2.state = w.state ∨ r.2.state = (p.run j w.state).2) ∧ ∀ b, r.1 = .ok (200, b) → SslSpec.successful b = false) ∨
      (r.1 = .ok (200, (p.run j w.state).1) ∧ r.2.state = (p.run j w.state).2) := by
  intro r
  have hh : ∀ w : World α, ((handle owner lib' p x url (.request (utf8 (JsonText.dumps lib j))) w).2.state = w.state ∧
        ∀ b, (handle owner lib' p x url (.request (utf8 (JsonText.dumps lib j))) w).1 = (200, b) → SslSpec.successful b = false) ∨
      ((handle owner lib' p x url (.request (utf8 (JsonText.dumps lib j))) w).1 = (200, (p.run j w.state).1) ∧
        (handle owner lib' p x url (.request (utf8 (JsonText.dumps lib j))) w).2.state = (p.run j w.state).2) := by
    intro w
    have href : ∀ b, x.refusal w.count = (200, b) → SslSpec.successful b = false := by
      intro b hb
      have := hx.refusal w.count
      rw [hb] at this
      exact this rfl
    simp only [handle, fromUtf8_utf8, Option.bind_some, JsonText.loads_dumps lib j hj]
    cases url with
    | app => exact .inl ⟨rfl, href⟩
    | token t =>
      simp only
      split
      · exact .inr ⟨delivered_eq lib' (hp _ _), rfl⟩
      · exact .inl ⟨rfl, href⟩
  have key : ∀ w0 : World α, w0.state = w.state → ∀ n,
      r = (match x.fate n with
        | .fine => (.ok (handle owner lib' p x url (.request (utf8 (JsonText.dumps lib j))) w0).1,
            { (handle owner lib' p x url (.request (utf8 (JsonText.dumps lib j))) w0).2 with count := w0.count + 1 })
        | .lost instead => (instead, { w0 with count := w0.count + 1 })
        | .unanswered instead =>
          (instead, { (handle owner lib' p x url (.request (utf8 (JsonText.dumps lib j))) w0).2 with count := w0.count + 1 })) →
      ((r.2.state = w.state ∨ r.2.state = (p.run j w.state).2) ∧ ∀ b, r.1 = .ok (200, b) → SslSpec.successful b = false) ∨
      (r.1 = .ok (200, (p.run j w.state).1) ∧ r.2.state = (p.run j w.state).2) := by
    intro w0 hw n hr
    rw [hr]
    have hf := hx.fate n
    rw [← hw]
    cases hfate : x.fate n with
    | fine =>
      simp only
      rcases hh w0 with ⟨h1, h2⟩ | ⟨h1, h2⟩
      · exact .inl ⟨.inl h1, fun b hb => h2 b (Except.ok.inj hb)⟩
      · exact .inr ⟨by rw [h1], h2⟩
    | lost instead =>
      rw [hfate] at hf
      exact .inl ⟨.inl rfl, hf⟩
    | unanswered instead =>
      rw [hfate] at hf
      refine .inl ⟨?_, hf⟩
      simp only
      rcases hh w0 with ⟨h1, _⟩ | ⟨_, h2⟩
      · exact .inl h1
      · exact .inr h2
  cases hr : x.restart w.count with
  | false => exact key w rfl w.count (by show exchange _ _ _ _ _ _ _ = _; unfold exchange; simp only [hr]; rfl)
  | true => exact key { w with token := none } rfl w.count (by show exchange _ _ _ _ _ _ _ = _; unfold exchange; simp only [hr]; rfl)

/-- What a computation of the transport other than a request does to the device's program: nothing. -/
def Leaves {β : Type} (m : PyM (St (World α)) β) : Prop := ∀ s, (m s).2.world.state = s.world.state

theorem Leaves.bind {β γ : Type} {m : PyM (St (World α)) β} {f : β → PyM (St (World α)) γ} (hm : Leaves m)
    (hf : ∀ x, Leaves (f x)) : Leaves (m >>= f) := by
  intro s
  rw [bind_apply]
  have := hm s
  cases h : m s with
  | mk r s' =>
    rw [h] at this
    cases r with
    | error e => exact this
    | ok v => exact (hf v s').trans this

theorem Leaves.pure {β : Type} (v : β) : Leaves (α := α) (Pure.pure v) := fun _ => rfl
theorem Leaves.raise {β : Type} (e : Exc) : Leaves (α := α) (PyM.raise e : PyM _ β) := fun _ => rfl
theorem Leaves.lift {β : Type} (r : Except Exc β) : Leaves (α := α) (PyM.lift r) := fun s => by cases r <;> rfl
theorem Leaves.modify {f : St (World α) → St (World α)} (h : ∀ s, (f s).world = s.world) : Leaves (modifyS f) :=
  fun s => by show (f s).world.state = _; rw [h]

theorem handleCode_world (resp : Json) (s : St (World α)) : (handleCode resp s).2.world = s.world := by
  rcases handleCode_spec resp s with ⟨_, h⟩ | ⟨_, _, n, _, h⟩ | ⟨_, _, e, h, _⟩ <;> rw [h] <;> rfl

theorem Leaves.now : Leaves (Ssl.now (network owner lib' p x)) := fun _ => rfl

theorem Leaves.login (params : Json) : Leaves (sendRequest (network owner lib' p x) (.login params)) := by
  refine .bind (fun s => exchange_login owner lib' p x s.url params s.world) fun r => ?_
  split
  · exact .raise _
  · exact .bind (fun s => by rw [handleCode_world]) fun _ => .pure _

theorem Leaves.tryLogin (params : Json) : Leaves (Ssl.tryLogin (network owner lib' p x) params) :=
  .bind (.login owner lib' p x params) fun _ => .bind (fun s => by rw [handleCode_world]) fun _ => .bind (.lift _) fun _ =>
    .bind (.modify fun _ => rfl) fun _ => .bind (.now owner lib' p x) fun _ => .modify fun _ => rfl

theorem Leaves.tryExcept {β : Type} {m : PyM (St (World α)) β} {f : Exc → PyM (St (World α)) β} (hm : Leaves m)
    (hf : ∀ e, Leaves (f e)) : Leaves (PyM.tryExcept m f) := by
  intro s
  have := hm s
  cases h : m s with
  | mk r s' =>
    rw [h] at this
    cases r with
    | ok v => rw [tryExcept_ok h]; exact this
    | error e => rw [tryExcept_error h]; exact (hf e s').trans this

theorem Leaves.ensureLogin : Leaves (Ssl.ensureLogin (network owner lib' p x) cfg) := by
  refine .bind (.bind (fun _ => rfl) fun s => ?_) fun needed => ?_
  · split
    · refine .bind (fun _ => rfl) fun s => ?_
      split
      · exact .pure _
      · exact .bind (.now owner lib' p x) fun _ => .pure _
    · exact .pure _
  · split
    · refine .tryExcept (.tryLogin owner lib' p x _) fun e => ?_
      cases e with
      | auth code =>
        simp only
        split
        · exact .raise _
        · refine .tryExcept (.tryLogin owner lib' p x _) fun e => ?_
          cases e <;> exact .raise _
      | _ => exact .raise _
    · exact .pure _

/-- One request. -/
theorem send_step (hx : x.Fair) (hp : ∀ j a, JsonText.Proper (p.run j a).1) (j : Json) (hj : JsonText.Proper j)
    (s : St (World α)) : ∃ res s', Ssl.send (network owner lib' p x) cfg (utf8 (JsonText.dumps lib j)) s = (res, s') ∧
    ((∃ e, res = .error e ∧ s'.world.state = s.world.state) ∨
      (∃ e, res = .error e ∧ s'.world.state = (p.run j s.world.state).2) ∨
      (res = .ok (p.run j s.world.state).1 ∧ s'.world.state = (p.run j s.world.state).2)) := by
  unfold Ssl.send
  rw [bind_apply]
  show ∃ res s', (Ssl.ensureLogin (network owner lib' p x) cfg >>= fun _ => sendRequest (network owner lib' p x) _)
    { s with log := s.log ++ [.call] } = (res, s') ∧ _
  rw [bind_apply]
  have hl := Leaves.ensureLogin owner lib' p x cfg { s with log := s.log ++ [.call] }
  cases hel : Ssl.ensureLogin (network owner lib' p x) cfg { s with log := s.log ++ [.call] } with
  | mk r s1 =>
    rw [hel] at hl
    have hl : s1.world.state = s.world.state := hl
    cases r with
    | error e => exact ⟨_, _, rfl, .inl ⟨e, rfl, hl⟩⟩
    | ok _ =>
      simp only
      have hr := exchange_request owner lib lib' p x hx hp s1.url j hj s1.world
      simp only at hr
      unfold sendRequest
      rw [bind_apply]
      unfold post
      show ∃ res s', _ ∧ _
      simp only [network]
      rw [← hl]
      cases ho : exchange owner lib' p x s1.url (.request (utf8 (JsonText.dumps lib j))) s1.world with
      | mk out w' =>
        rw [ho] at hr
        simp only at hr
        cases out with
        | error e =>
          refine ⟨_, _, rfl, ?_⟩
          rcases hr with ⟨h | h, _⟩ | ⟨h, _⟩
          · exact .inl ⟨_, rfl, h⟩
          · exact .inr (.inl ⟨_, rfl, h⟩)
          · exact nomatch h
        | ok v =>
          obtain ⟨st, b⟩ := v
          simp only [Except.mapError]
          by_cases h200 : st = 200
          · subst h200
            simp only [ne_eq, not_true_eq_false, if_false, bind_apply]
            generalize hs2 : ({ s1 with world := w', log := _ } : St (World α)) = s2
            have hw2 : s2.world = w' := by rw [← hs2]
            rcases handleCode_spec b s2 with ⟨hs, h2⟩ | ⟨hs, _, n, _, h2⟩ | ⟨hs, _, e, h2, _⟩
            · rw [h2]
              refine ⟨_, _, rfl, ?_⟩
              rcases hr with ⟨_, h⟩ | ⟨h, h'⟩
              · rw [h b rfl] at hs
                exact nomatch hs
              · cases h
                rw [hw2]
                exact .inr (.inr ⟨rfl, h'⟩)
            · rw [h2]
              refine ⟨_, _, rfl, ?_⟩
              show (∃ e, _ ∧ s2.world.state = _) ∨ (∃ e, _ ∧ s2.world.state = _) ∨ _
              rw [hw2]
              rcases hr with ⟨h | h, _⟩ | ⟨_, h⟩
              · exact .inl ⟨_, rfl, h⟩
              · exact .inr (.inl ⟨_, rfl, h⟩)
              · exact .inr (.inl ⟨_, rfl, h⟩)
            · rw [h2]
              refine ⟨_, _, rfl, ?_⟩
              rw [hw2]
              rcases hr with ⟨h | h, _⟩ | ⟨_, h⟩
              · exact .inl ⟨_, rfl, h⟩
              · exact .inr (.inl ⟨_, rfl, h⟩)
              · exact .inr (.inl ⟨_, rfl, h⟩)
          · simp only [ne_eq, h200, not_false_eq_true, if_true]
            refine ⟨_, _, rfl, ?_⟩
            rcases hr with ⟨h | h, _⟩ | ⟨_, h⟩
            · exact .inl ⟨_, rfl, h⟩
            · exact .inr (.inl ⟨_, rfl, h⟩)
            · exact .inr (.inl ⟨_, rfl, h⟩)

/-- **C85, over time.** Requests sent one after the other over an HTTPS transport, with resets anywhere in between, whatever
happens on the network, to the device's session and to the clock: answered requests were carried out exactly once, with the
answer of the device; failed ones at most once. -/
theorem C85_ssl_once (hx : x.Fair) (hp : ∀ j a, JsonText.Proper (p.run j a).1) (w : World α)
    (ops : List Op) (hops : ∀ j, .send j ∈ ops → JsonText.Proper j) :
    Once p w.state (history (network owner lib' p x) cfg lib ops { world := w }).1
      (history (network owner lib' p x) cfg lib ops { world := w }).2.world.state := by
  have key : ∀ (ops : List Op) (s : St (World α)), (∀ j, .send j ∈ ops → JsonText.Proper j) →
      Once p s.world.state (history (network owner lib' p x) cfg lib ops s).1
        (history (network owner lib' p x) cfg lib ops s).2.world.state := by
    intro ops
    induction ops with
    | nil => intro s _; exact .nil _
    | cons op ops ih =>
      intro s hops
      cases op with
      | reset => exact ih (reset s).2 fun j hj => hops j (.tail _ hj)
      | send j =>
        obtain ⟨res, s', h1, h3⟩ := send_step owner lib lib' p x cfg hx hp j (hops j (.head _)) s
        have := ih s' fun j hj => hops j (.tail _ hj)
        simp only [history, h1]
        rcases h3 with ⟨e, rfl, he⟩ | ⟨e, rfl, he⟩ | ⟨rfl, he⟩
        · rw [he] at this; exact .failed this
        · rw [he] at this; exact .unanswered this
        · rw [he] at this; exact .answered this
  exact key ops { world := w } hops

/-! ## SMART queries -/

variable (uuid : String) (time : Nat → Int)

theorem faithful (hx : x.Fair) (hp : ∀ j a, JsonText.Proper (p.run j a).1) :
    Faithful (sslTransport (network owner lib' p x) cfg lib uuid time) p uuid (fun _ => True) (fun s => s.world.state) := by
  constructor
  · intro w hw s _
    obtain ⟨res, s', h1, h3⟩ := send_step owner lib lib' p x cfg hx hp _ (proper_wire uuid (time s.world.count) w hw) s
    exact ⟨_, res, s', message_wire uuid _ w, h1, trivial, h3⟩
  · intro s _
    exact ⟨trivial, rfl⟩

/-- **C85, queries.** Queries on a new protocol object with an HTTPS transport, with whatever requests, batches, pages, missing
answers and retries they lead to, over whatever network: of the messages sent, those that were answered were carried out
exactly once, and the others at most once, in the order in which they were sent. -/
theorem C85_queries_once (hx : x.Fair) (hp : ∀ j a, JsonText.Proper (p.run j a).1) (n : Nat) (w : World α)
    (qs : List (Smart.Query × Int)) (hq : ∀ q ∈ qs, ProperQuery q.1) :
    ∃ trace, Sent uuid (queries (sslTransport (network owner lib' p x) cfg lib uuid time) qs (fresh n w)).wire (trace.map Prod.fst) ∧
      Once p w.state trace (queries (sslTransport (network owner lib' p x) cfg lib uuid time) qs (fresh n w)).world.world.state :=
  (faithful owner lib lib' p x cfg uuid time hx hp).queries_once (fresh n w) trivial rfl qs hq

/-- **C85, results.** When a query returns, after whatever failures and retries, its result has an entry for every method and
nothing else, and each entry is what the device answers to that method. -/
theorem C85_query_result (hx : x.Fair) (hp : ∀ j a, JsonText.Proper (p.run j a).1)
    {ans : Smart.Request → SmartSpec.Answer} (hans : Speaks p uuid ans) (hu : SmartSpec.Unpaged ans) (requests : Dict String Json)
    (hwf : Dict.WF requests) (hq : ProperQuery (.dict requests)) (hlen : requests.length ≠ 1) (before : List (Smart.Query × Int))
    (hbefore : ∀ q ∈ before, ProperQuery q.1) (rc : Int) (n : Nat) (hn : n ≠ 1) (w : World α) (r : Dict String Smart.Entry)
    (hr : (Smart.query (sslTransport (network owner lib' p x) cfg lib uuid time) (.dict requests) rc
      (queries (sslTransport (network owner lib' p x) cfg lib uuid time) before (fresh n w))).1 = .ok r) :
    (∀ m, m ∈ r.keys ↔ m ∈ requests.keys) ∧
      ∀ m q, (m, q) ∈ requests → Dict.get? r m = some (SmartSpec.entryFor (ans (SmartSpec.requestFor m q))) :=
  (faithful owner lib lib' p x cfg uuid time hx hp).query_result hans hu requests hwf hq hlen before hbefore rc (fresh n w)
    trivial hn r hr

/-- **C85, setters.** A query that sets something on the device, sent again after failures as often as it takes: when it
returns, the device is in the state asked for; when it raises, the device is in that state or as it was. -/
theorem C85_setter (hx : x.Fair) (hp : ∀ j a, JsonText.Proper (p.run j a).1) (m : String) (q : Json)
    (hq : JsonText.Proper q) {f : α → α} {v : Json} (hset : Sets p uuid (SmartSpec.requestFor m q) f v) (before : List (Smart.Query × Int))
    (hbefore : ∀ q ∈ before, ProperQuery q.1) (rc : Int) (n : Nat) (w : World α) :
    let t := sslTransport (network owner lib' p x) cfg lib uuid time
    let s := queries t before (fresh n w)
    let out := Smart.query t (.dict [(m, q)]) rc s
    (∀ r, out.1 = .ok r → r = [(m, .value v)] ∧ out.2.world.world.state = f s.world.world.state) ∧
      ∀ e, out.1 = .error e → out.2.world.world.state = s.world.world.state ∨ out.2.world.world.state = f s.world.world.state :=
  (faithful owner lib lib' p x cfg uuid time hx hp).setter m q hq hset before hbefore rc (fresh n w) trivial

/-! ## When nothing goes wrong any more -/

/-- The transport has no session, or the one the device has. -/
def Steady (n : Nat) (s : St (World α)) : Prop :=
  n ≤ s.world.count ∧ (s.established = true → ∃ t, s.url = .token t ∧ s.world.token = some t)

variable {n : Nat}

theorem steady_down {s : St (World α)} (h : n ≤ s.world.count) : Steady n (down s) := ⟨h, fun h => nomatch h⟩

theorem exchange_calm (hc : x.CalmFrom n) (url : Url) (body : Body) (w : World α) (hn : n ≤ w.count) :
    exchange owner lib' p x url body w =
      (.ok (handle owner lib' p x url body w).1, { (handle owner lib' p x url body w).2 with count := w.count + 1 }) := by
  unfold exchange
  rw [hc.restart _ hn]
  simp only [Bool.false_eq_true, if_false, hc.fate _ hn]

theorem loginAnswer_proper {t : Json} (h : JsonText.Proper t) :
    JsonText.Proper (.obj [("error_code", .num 0), ("result", .obj [("token", t)])]) := by
  simp [JsonText.Proper, JsonText.ProperKvs, Dict.WF, Dict.keys, h]

theorem handleCode_successful {resp : Json} (h : SslSpec.successful resp = true) (s : St (World α)) :
    handleCode resp s = (.ok (), s) := by
  rcases handleCode_spec resp s with ⟨_, h2⟩ | ⟨h2, _⟩ | ⟨h2, _⟩
  · exact h2
  all_goals rw [h] at h2; cases h2

theorem handleCode_refused {resp : Json} (h : SslSpec.refused resp = true) (s : St (World α)) :
    ∃ k, resp.get? "error_code" = some (.num k) ∧ handleCode resp s = (.error (.auth (some k)), down s) := by
  rcases handleCode_spec resp s with ⟨h2, _⟩ | ⟨_, _, k, h2⟩ | ⟨_, h2, _⟩
  · exfalso
    obtain ⟨k, h3, h4⟩ := (refused_iff resp).1 h
    unfold SslSpec.successful at h2
    rw [h3] at h2
    have hk : k = 0 := by simpa using h2
    subst hk
    exact absurd h4 (by decide)
  · exact ⟨k, h2⟩
  · rw [h] at h2; cases h2

/-- A login with the right parameters. -/
theorem tryLogin_right (hc : x.CalmFrom n) (s : St (World α)) (hn : n ≤ s.world.count) :
    ∃ s', Ssl.tryLogin (network owner lib' p x) owner s = (.ok (), s') ∧ Steady n s' ∧
      (s'.established = true ∧ s'.world.state = s.world.state) := by
  have hp := delivered_eq lib' (loginAnswer_proper (hc.token _ hn))
  have hs : ∀ t : Json, SslSpec.successful (.obj [("error_code", .num 0), ("result", .obj [("token", t)])]) = true := by
    intro t; simp [SslSpec.successful, Json.get?, Dict.get?]
  have hr : ∀ t : Json, Aes.resultOf (.obj [("error_code", .num 0), ("result", .obj [("token", t)])]) "token" = .ok t := by
    intro t; simp [Aes.resultOf, Json.get?, Dict.get?]
  unfold tryLogin
  rw [bind_apply]
  unfold sendRequest
  rw [bind_apply]
  unfold post
  simp only [network, exchange_calm owner lib' p x hc _ _ _ hn, handle, if_true, hp, Except.mapError, ne_eq, not_true_eq_false,
    if_false]
  simp only [bind_apply, handleCode_successful (hs _)]
  refine ⟨_, rfl, ⟨?_, fun _ => ⟨_, ?_, rfl⟩⟩, rfl, rfl⟩
  · show n ≤ s.world.count + 1 + 1
    omega
  · rfl

/-- A login with the wrong parameters. -/
theorem tryLogin_wrong (hc : x.CalmFrom n) {params : Json} (hne : params ≠ owner)
    (hd : ∀ n, (x.denial n).1 = 200 ∧ SslSpec.wrongCredentials (x.denial n).2 = true) (s : St (World α)) (hn : n ≤ s.world.count) :
    ∃ s', Ssl.tryLogin (network owner lib' p x) params s = (.error (.auth (some (-1501))), s') ∧ n ≤ s'.world.count ∧
      s'.world.state = s.world.state := by
  obtain ⟨h200, hw⟩ := hd s.world.count
  have hcode : (x.denial s.world.count).2.get? "error_code" = some (.num (-1501)) := by
    simpa [SslSpec.wrongCredentials] using hw
  have href : SslSpec.refused (x.denial s.world.count).2 = true := (refused_iff _).2 ⟨-1501, hcode, by decide⟩
  unfold tryLogin
  rw [bind_apply]
  unfold sendRequest
  rw [bind_apply]
  unfold post
  simp only [network, exchange_calm owner lib' p x hc _ _ _ hn, handle, hne, if_false, Except.mapError, ne_eq, h200,
    not_true_eq_false, bind_apply]
  generalize hs2 : ({ s with world := _, log := _ } : St (World α)) = s2
  obtain ⟨k, hk, h2⟩ := handleCode_refused href s2
  rw [hcode] at hk
  cases hk
  rw [h2]
  refine ⟨_, rfl, ?_, ?_⟩
  · rw [← hs2]
    show n ≤ s.world.count + 1
    omega
  · rw [← hs2]
    rfl

/-- A login, with whichever credentials the device knows. -/
theorem performLogin_calm (hc : x.CalmFrom n) (ho : x.Recognises owner cfg) (s : St (World α)) (hn : n ≤ s.world.count) :
    ∃ s', performLogin (network owner lib' p x) cfg s = (.ok (), s') ∧ Steady n s' ∧
      (s'.established = true ∧ s'.world.state = s.world.state) := by
  unfold performLogin
  by_cases hu : cfg.loginParams = owner
  · obtain ⟨s', h1, h2⟩ := tryLogin_right owner lib' p x hc s hn
    rw [hu, tryExcept_ok h1]
    exact ⟨s', rfl, h2⟩
  · obtain ⟨hdef, hd⟩ := ho hu
    obtain ⟨s1, h1, h2, h3⟩ := tryLogin_wrong owner lib' p x hc hu hd s hn
    obtain ⟨s', k1, k2, k3, k4⟩ := tryLogin_right owner lib' p x hc s1 h2
    rw [tryExcept_error h1]
    simp only
    rw [if_neg (by decide), hdef, tryExcept_ok k1]
    exact ⟨s', rfl, k2, k3, k4.trans h3⟩

/-- Before a request. -/
theorem ensureLogin_calm (hc : x.CalmFrom n) (ho : x.Recognises owner cfg) (s : St (World α)) (hn : n ≤ s.world.count) :
    ∃ s', Ssl.ensureLogin (network owner lib' p x) cfg s = (.ok (), s') ∧ n ≤ s'.world.count ∧ s'.established = true ∧
      s'.world.state = s.world.state ∧ (Steady n s → Steady n s') := by
  have hlogin : ∀ s1 : St (World α), n ≤ s1.world.count → s1.world.state = s.world.state →
      ∃ s', performLogin (network owner lib' p x) cfg s1 = (.ok (), s') ∧ n ≤ s'.world.count ∧ s'.established = true ∧
        s'.world.state = s.world.state ∧ (Steady n s → Steady n s') := by
    intro s1 h1 h2
    obtain ⟨s', k1, k2, k3, k4⟩ := performLogin_calm owner lib' p x cfg hc ho s1 h1
    exact ⟨s', k1, k2.1, k3, k4.trans h2, fun _ => k2⟩
  unfold Ssl.ensureLogin needsLogin
  rw [bind_apply, bind_apply]
  simp only [PyM.getS]
  cases he : s.established with
  | false => exact hlogin s hn rfl
  | true =>
    simp only [if_true]
    unfold sessionExpired
    rw [bind_apply]
    simp only [PyM.getS]
    cases hx : s.expireAt with
    | none => exact hlogin s hn rfl
    | some d =>
      simp only [bind_apply, Ssl.now, network]
      show ∃ s', (if decide (d - x.clock s.world.count ≤ 0) = true then _ else _ : PyM _ _) _ = _ ∧ _
      by_cases hd : d - x.clock s.world.count ≤ 0
      · rw [if_pos (by simpa using hd)]
        exact hlogin _ (by show n ≤ s.world.count + 1; omega) rfl
      · rw [if_neg (by simpa using hd)]
        refine ⟨_, rfl, ?_, he, rfl, ?_⟩
        · show n ≤ s.world.count + 1
          omega
        · rintro ⟨_, h⟩
          exact ⟨by show n ≤ s.world.count + 1; omega, h⟩

/-- One request, once nothing goes wrong any more. -/
theorem send_calm (hc : x.CalmFrom n) (ho : x.Recognises owner cfg) (hp : ∀ j a, JsonText.Proper (p.run j a).1) (j : Json)
    (hj : JsonText.Proper j) (s : St (World α)) (hn : n ≤ s.world.count) :
    ∃ res s', Ssl.send (network owner lib' p x) cfg (utf8 (JsonText.dumps lib j)) s = (res, s') ∧ Steady n s' ∧
      ((s'.world.state = (p.run j s.world.state).2 ∧
          (SslSpec.successful (p.run j s.world.state).1 = true → res = .ok (p.run j s.world.state).1)) ∨
        (¬ Steady n s ∧ s'.world.state = s.world.state ∧ ∃ k, res = .error (.auth k))) := by
  unfold Ssl.send
  rw [bind_apply]
  show ∃ res s', (Ssl.ensureLogin (network owner lib' p x) cfg >>= fun _ => sendRequest (network owner lib' p x) _)
    { s with log := s.log ++ [.call] } = (res, s') ∧ _
  obtain ⟨s1, h1, h2, h3, h4, h5⟩ := ensureLogin_calm owner lib' p x cfg hc ho { s with log := s.log ++ [.call] } hn
  have h4 : s1.world.state = s.world.state := h4
  have h5 : Steady n s → Steady n s1 := h5
  rw [bind_apply, h1, ← h4]
  simp only
  unfold sendRequest
  rw [bind_apply]
  unfold post
  simp only [network, exchange_calm owner lib' p x hc _ _ _ h2, Except.mapError]
  by_cases hu : ∃ t, s1.url = .token t ∧ s1.world.token = some t
  · obtain ⟨t, hu, ht⟩ := hu
    have hh : handle owner lib' p x s1.url (.request (utf8 (JsonText.dumps lib j))) s1.world =
        ((200, (p.run j s1.world.state).1), { s1.world with state := (p.run j s1.world.state).2 }) := by
      simp only [handle, fromUtf8_utf8, Option.bind_some, JsonText.loads_dumps lib j hj, hu, ht, if_true, delivered_eq lib' (hp _ _)]
    rw [hh]
    simp only [ne_eq, not_true_eq_false, if_false, bind_apply]
    generalize hs2 : ({ s1 with world := _, log := _ } : St (World α)) = s2
    have hst : Steady n s2 := by
      rw [← hs2]
      exact ⟨by show n ≤ s1.world.count + 1; omega, fun _ => ⟨t, hu, ht⟩⟩
    have hs : s2.world.state = (p.run j s1.world.state).2 := by rw [← hs2]
    rcases handleCode_spec (p.run j s1.world.state).1 s2 with ⟨_, k2⟩ | ⟨k1, _, m, _, k2⟩ | ⟨k1, _, e, k2, _⟩
    · rw [k2]
      exact ⟨_, _, rfl, hst, .inl ⟨hs, fun _ => rfl⟩⟩
    · rw [k2]
      exact ⟨_, _, rfl, steady_down hst.1, .inl ⟨hs, fun h => by rw [k1] at h; cases h⟩⟩
    · rw [k2]
      exact ⟨_, _, rfl, hst, .inl ⟨hs, fun h => by rw [k1] at h; cases h⟩⟩
  · have hh : handle owner lib' p x s1.url (.request (utf8 (JsonText.dumps lib j))) s1.world =
        (x.refusal s1.world.count, s1.world) := by
      simp only [handle, fromUtf8_utf8, Option.bind_some, JsonText.loads_dumps lib j hj]
      cases hurl : s1.url with
      | app => rfl
      | token t =>
        simp only
        rw [if_neg (fun h => hu ⟨t, hurl, h⟩)]
    obtain ⟨h200, href⟩ := hc.refusal _ h2
    rw [hh]
    simp only [h200, ne_eq, not_true_eq_false, if_false, bind_apply]
    generalize hs2 : ({ s1 with world := _, log := _ } : St (World α)) = s2
    obtain ⟨k, _, k2⟩ := handleCode_refused href s2
    rw [k2]
    refine ⟨_, _, rfl, steady_down ?_, .inr ⟨fun h => hu ((h5 h).2 h3), ?_, _, rfl⟩⟩
    · rw [← hs2]
      show n ≤ s1.world.count + 1
      omega
    · rw [← hs2]
      rfl

theorem history_steady (hc : x.CalmFrom n) (ho : x.Recognises owner cfg) (hp : ∀ j a, JsonText.Proper (p.run j a).1)
    (hs : Successful p) : ∀ (ops : List Op) (s : St (World α)), Steady n s → (∀ j, .send j ∈ ops → JsonText.Proper j) →
      ∀ o ∈ (history (network owner lib' p x) cfg lib ops s).1, ∃ v, o.2 = .ok v := by
  intro ops
  induction ops with
  | nil => intro s _ _ o ho; cases ho
  | cons op ops ih =>
    intro s hst hops
    cases op with
    | reset => exact ih (reset s).2 ⟨hst.1, fun h => nomatch h⟩ fun j hj => hops j (.tail _ hj)
    | send j =>
      obtain ⟨res, s', h1, h2, h3⟩ := send_calm owner lib lib' p x cfg hc ho hp j (hops j (.head _)) s hst.1
      simp only [history, h1]
      intro o hm
      rcases List.mem_cons.1 hm with rfl | hm
      · rcases h3 with ⟨_, h4⟩ | ⟨h4, _⟩
        · exact ⟨_, h4 (hs _ _)⟩
        · exact absurd hst h4
      · exact ih s' h2 (fun j hj => hops j (.tail _ hj)) o hm

/-- **C85, without failures.** When every exchange works, the device keeps its session and knows the user's credentials (or
the default ones), every request on a new transport object gets its answer. -/
theorem C85_ssl_reliable (w : World α) (hc : x.CalmFrom w.count) (ho : x.Recognises owner cfg)
    (hp : ∀ j a, JsonText.Proper (p.run j a).1) (hs : Successful p) (ops : List Op) (hops : ∀ j, .send j ∈ ops → JsonText.Proper j) :
    ∀ o ∈ (history (network owner lib' p x) cfg lib ops { world := w }).1, ∃ v, o.2 = .ok v :=
  history_steady owner lib lib' p x cfg hc ho hp hs ops { world := w } ⟨Nat.le_refl _, fun h => nomatch h⟩ hops

/-- **C85, recovery.** After any history, with whatever failures, once nothing goes wrong any more, at most one more request
fails: the first one, and only when the device refuses it as not authenticated; it is not carried out then. -/
theorem C85_recovers (w : World α) (before : List Op) (ho : x.Recognises owner cfg) (hp : ∀ j a, JsonText.Proper (p.run j a).1)
    (hs : Successful p) (j : Json) (hj : JsonText.Proper j) (after : List Op) (hafter : ∀ j, .send j ∈ after → JsonText.Proper j) :
    let net := network owner lib' p x
    let s := (history net cfg lib before { world := w }).2
    let first := Ssl.send net cfg (utf8 (JsonText.dumps lib j)) s
    x.CalmFrom s.world.count →
    (first.1 = .ok (p.run j s.world.state).1 ∨ (∃ k, first.1 = .error (.auth k)) ∧ first.2.world.state = s.world.state) ∧
      ∀ o ∈ (history net cfg lib after first.2).1, ∃ v, o.2 = .ok v := by
  intro net s first hc
  obtain ⟨res, s', h1, h2, h3⟩ := send_calm owner lib lib' p x cfg hc ho hp j hj s (Nat.le_refl _)
  have h1 : first = (res, s') := h1
  rw [h1]
  refine ⟨?_, history_steady owner lib lib' p x cfg hc ho hp hs after s' h2 hafter⟩
  rcases h3 with ⟨_, h4⟩ | ⟨_, h4, h5⟩
  · exact .inl (h4 (hs _ _))
  · exact .inr ⟨h5, h4⟩

/-- **C85, setters without failures.** Under the same conditions, and whatever was asked before, a query that sets something
returns and has set it. -/
theorem C85_setter_works (hx : x.Fair) (w : World α) (hc : x.CalmFrom w.count) (ho : x.Recognises owner cfg)
    (hp : ∀ j a, JsonText.Proper (p.run j a).1) (m : String) (q : Json) (hq : JsonText.Proper q) {f : α → α} {v : Json}
    (hset : Sets p uuid (SmartSpec.requestFor m q) f v) (before : List (Smart.Query × Int))
    (hbefore : ∀ q ∈ before, ProperQuery q.1) (rc batch : Nat) :
    let t := sslTransport (network owner lib' p x) cfg lib uuid time
    let s := queries t before (fresh batch w)
    let out := Smart.query t (.dict [(m, q)]) rc s
    out.1 = .ok [(m, .value v)] ∧ out.2.world.world.state = f s.world.world.state := by
  intro t s out
  have F : Faithful t p uuid (Steady w.count) (fun s => s.world.state) := by
    constructor
    · intro wr hw s hs
      obtain ⟨res, s', h1, h3⟩ := send_step owner lib lib' p x cfg hx hp _ (proper_wire uuid (time s.world.count) wr hw) s
      obtain ⟨res', s'', k1, k2, _⟩ := send_calm owner lib lib' p x cfg hc ho hp _ (proper_wire uuid (time s.world.count) wr hw) s hs.1
      rw [h1] at k1
      cases k1
      exact ⟨_, _, s', message_wire uuid _ wr, h1, k2, h3⟩
    · intro s hs
      exact ⟨⟨hs.1, fun h => nomatch h⟩, rfl⟩
  have hs : Steady w.count s.world :=
    (F.queries_explains before (fresh batch w) hbefore ⟨Nat.le_refl _, fun h => nomatch h⟩).1
  have hw : Smart.WireAll JsonText.Proper (.single (Smart.mkRequest m q)) := Smart.mkRequest_wireAll hq
  obtain ⟨res, s', h1, _, h3⟩ :=
    send_calm owner lib lib' p x cfg hc ho hp _ (proper_wire uuid (time s.world.world.count) _ hw) s.world hs.1
  have hok : res = .ok (p.run (SmartText.wireJson uuid (time s.world.world.count) (.single (Smart.mkRequest m q))) s.world.world.state).1 := by
    rcases h3 with ⟨_, h4⟩ | ⟨h4, _⟩
    · refine h4 ?_
      have := (hset.answer _ s.world.world.state (message_wire uuid (time s.world.world.count) (.single (Smart.mkRequest m q)))).2.1
      unfold SslSpec.successful
      rw [this]
      rfl
    · exact absurd hs h4
  rw [hok] at h1
  have hout : out.1 = .ok [(m, .value v)] := by
    rw [show out = _ from setter_works m q hset rc s (message_wire uuid _ _) h1]
  exact ⟨hout, ((C85_setter owner lib lib' p x cfg uuid time hx hp m q hq hset before hbefore rc batch w).1 _ hout).2⟩

end

/-! ## Examples -/

/-- The answer to the second request does not arrive, and the device restarts before the third. -/
def sampleChance : Chance where
  fate n := if n = 4 then .unanswered (.error .timeout) else .fine
  restart n := n = 6
  token n := .num n
  refusal _ := (200, .obj [("error_code", .num (-1005))])
  denial _ := (200, .obj [("error_code", .num (-1501))])
  clock n := n

theorem sampleChance_fair : sampleChance.Fair := by
  refine ⟨fun n => ?_, fun n _ => rfl⟩
  unfold sampleChance
  simp only
  split
  · intro b hb; cases hb
  · trivial

theorem sampleChance_calm : sampleChance.CalmFrom 7 := by
  refine ⟨fun k h => ?_, fun k h => ?_, fun k _ => by simp [sampleChance, JsonText.Proper], fun k _ => ⟨rfl, show SslSpec.refused (.obj [("error_code", .num (-1005))]) = true by decide⟩⟩
  · exact if_neg (by omega)
  · exact decide_eq_false (by omega)

def sampleWorld : World Nat := ⟨none, 0, 0⟩

abbrev sampleConfig : Config := ⟨.str "user", .str "default"⟩

abbrev sampleNetwork (owner : String) : Env (World Nat) := network (.str owner) .orjson counter sampleChance

def sampleOps : List Op := [.send (.str "a"), .send (.str "b"), .send (.str "c"), .send (.str "d"), .reset, .send (.str "e")]

/-- Five requests: the second was carried out but not answered, the third was not carried out. -/
example : ((history (sampleNetwork "user") sampleConfig .python sampleOps { world := sampleWorld }).1.map
      fun o => o.2.toOption.bind fun v => v.get? "result") = [some (.num 0), none, none, some (.num 2), some (.num 3)] ∧
    (history (sampleNetwork "user") sampleConfig .python sampleOps { world := sampleWorld }).2.world.state = 4 := by
  decide +kernel

theorem sampleOps_proper (j : Json) (hj : .send j ∈ sampleOps) : JsonText.Proper j := by
  simp only [sampleOps, List.mem_cons, Op.send.injEq, List.not_mem_nil, or_false, reduceCtorEq, false_or] at hj
  rcases hj with rfl | rfl | rfl | rfl | rfl <;> simp [JsonText.Proper]

example := C85_ssl_once (.str "user") .python .orjson counter sampleChance sampleConfig sampleChance_fair counter_proper sampleWorld
  sampleOps sampleOps_proper

theorem sampleConfig_recognised (owner : String) (h : owner = "user" ∨ owner = "default") :
    sampleChance.Recognises (.str owner) sampleConfig := by
  intro hne
  rcases h with rfl | rfl
  · exact absurd rfl hne
  · exact ⟨rfl, fun n => ⟨rfl, show SslSpec.wrongCredentials (.obj [("error_code", .num (-1501))]) = true by decide⟩⟩

theorem counter_successful : Successful counter := fun _ _ => rfl

/-- A device that only knows the default credentials. -/
example : ∀ o ∈ (history (sampleNetwork "default") sampleConfig .python sampleOps { world := ⟨none, 0, 7⟩ }).1, ∃ v, o.2 = .ok v :=
  C85_ssl_reliable (.str "default") .python .orjson counter sampleChance sampleConfig ⟨none, 0, 7⟩ sampleChance_calm
    (sampleConfig_recognised _ (.inr rfl)) counter_proper counter_successful sampleOps sampleOps_proper

/-- After the restart the transport goes on with the old session: one request fails. -/
example : let s := (history (sampleNetwork "user") sampleConfig .python [.send (.str "a"), .send (.str "b")] { world := sampleWorld }).2
    (Ssl.send (sampleNetwork "user") sampleConfig (utf8 (JsonText.dumps .python (.str "c"))) s).1 = .error (.auth (some (-1005))) := by
  decide +kernel

theorem sample_count : (history (sampleNetwork "user") sampleConfig .python
    [.send (.str "a"), .send (.str "b"), .send (.str "c")] { world := sampleWorld }).2.world.count = 7 := by decide +kernel

example := C85_recovers (.str "user") .python .orjson counter sampleChance sampleConfig sampleWorld
  [.send (.str "a"), .send (.str "b"), .send (.str "c")] (sampleConfig_recognised _ (.inl rfl)) counter_proper counter_successful
  (.str "d") (by simp [JsonText.Proper]) sampleOps sampleOps_proper (by rw [sample_count]; exact sampleChance_calm)

abbrev setterTransport : Smart.Transport (St (World Json)) :=
  sslTransport (network (.str "user") .orjson setting sampleChance) sampleConfig .python "u" fun n => n

/-- A setter on a device that restarts and loses an answer. -/
example :=
  C85_setter (.str "user") .python .orjson setting sampleChance sampleConfig "u" (fun n => n) sampleChance_fair setting_proper
    "set" (.num 5) (by simp [JsonText.Proper]) (setting_sets (.num 5) rfl) [] (fun _ h => (nomatch h)) 3 5 ⟨none, .null, 0⟩

example : (Smart.query setterTransport (.dict [("set", .num 5)]) 3 (fresh 5 ⟨none, .null, 7⟩)).1 = .ok [("set", .value (.obj []))] :=
  (C85_setter_works (.str "user") .python .orjson setting sampleChance sampleConfig "u" _ sampleChance_fair ⟨none, .null, 7⟩
    sampleChance_calm (sampleConfig_recognised _ (.inl rfl)) setting_proper "set" (.num 5) (by simp [JsonText.Proper])
    (setting_sets (.num 5) rfl) [] (fun _ h => (nomatch h)) 3 5).1

end Kasa.SslEndToEnd
