import Verif.Lemmas.HttpSessions
/-!
# C89: HTTP sessions are opened, used and closed as promised, and cookies are those of the device
-/

namespace Kasa.HttpSessions

variable {cfg : Nat → Config} {users : Nat}

/-- Sessions of clients in the examples: devices 0 and 1 share the user's session 0, device 2 was given an object of another class, device
3 and the others nothing. -/
def exampleCfg : Nat → Config
  | 0 => ⟨"10.0.0.1", some (.session 0)⟩
  | 1 => ⟨"10.0.0.2", some (.session 0)⟩
  | 2 => ⟨"10.0.0.3", some .other⟩
  | _ => ⟨"10.0.0.4", none⟩

theorem example_known : Known exampleCfg 1 := by
  intro c i h
  match c with
  | 0 => cases h; decide
  | 1 => cases h; decide
  | 2 => cases h
  | n + 3 => cases h

theorem example_hosts : ∀ c d, Shares exampleCfg c d → (exampleCfg c).host ≠ (exampleCfg d).host := by
  rintro c d ⟨hne, i, hc, hd⟩
  match c, d with
  | 0, 0 => exact absurd rfl hne
  | 1, 1 => exact absurd rfl hne
  | 0, 1 => decide
  | 1, 0 => decide
  | 0, 2 => cases hd
  | 0, n + 3 => cases hd
  | 1, 2 => cases hd
  | 1, n + 3 => cases hd
  | 2, _ => cases hc
  | n + 3, _ => cases hc

/-- Whatever happens, a session that the user gave is closed only by the user. -/
theorem C89_given_session_kept (hk : Known cfg users) {h : List Ev} {w : World} (hr : run cfg (World.init users) h = some w) (i : Nat)
    (hi : i < users) (hc : (w.session i).closed = true) : Ev.userCloses i ∈ h :=
  (inv_reach hk hr).users i hi hc

example : ∃ w, run exampleCfg (World.init 1) [.start 0, .head 0 [], .done 0 "a", .close 0, .start 1, .userCloses 0, .fails 1, .close 1]
    = some w ∧ (w.session 0).closed = true := ⟨_, rfl, rfl⟩

/-- A client that was given a session makes all its requests over it and makes no session. -/
theorem C89_given_session_used (hk : Known cfg users) {h : List Ev} {w : World} (hr : run cfg (World.init users) h = some w) (c i : Nat)
    (hg : (cfg c).httpClient = some (.session i)) :
    (∀ f, (w.client c).flight = some f → f.session = i) ∧ ∀ j, (w.session j).maker ≠ some c := by
  have iv := inv_reach hk hr
  refine ⟨fun f hf => ?_, fun j hj => (iv.made j c hj).2.2 ⟨i, hg⟩⟩
  rcases iv.flight c f hf with hb | ⟨hb, _⟩
  · rw [hg] at hb; cases hb; rfl
  · exact absurd ⟨i, hg⟩ hb

example : ∃ w, run exampleCfg (World.init 1) [.start 0, .head 0 [], .done 0 "a", .close 0, .start 0] = some w ∧
    ((w.client 0).flight = some ⟨0, false⟩) := ⟨_, rfl, rfl⟩

theorem openOf_le (c : Nat) (w : World) (i : Option Nat)
    (h : ∀ j, (w.session j).maker = some c → (w.session j).closed = false → i = some j) : openOf c w ≤ if i.isSome then 1 else 0 := by
  unfold openOf
  have hall : ∀ j ∈ (List.range w.next).filter (fun j => (w.session j).maker == some c && !(w.session j).closed), i = some j := by
    intro j hj
    have := (List.mem_filter.1 hj).2
    simp only [Bool.and_eq_true, beq_iff_eq, Bool.not_eq_true'] at this
    exact h j this.1 this.2
  have hnd : ((List.range w.next).filter (fun j => (w.session j).maker == some c && !(w.session j).closed)).Nodup :=
    List.Pairwise.filter _ List.nodup_range
  generalize (List.range w.next).filter (fun j => (w.session j).maker == some c && !(w.session j).closed) = l at *
  match l with
  | [] => simp
  | [a] =>
    rw [hall a List.mem_cons_self]; simp
  | a :: b :: l =>
    have h1 := hall a List.mem_cons_self
    have h2 := hall b (List.mem_cons_of_mem _ List.mem_cons_self)
    rw [h1] at h2
    cases h2
    simp at hnd

/-- A client never has two sessions open. -/
theorem C89_one_session (hk : Known cfg users) {h : List Ev} {w : World} (hr : run cfg (World.init users) h = some w) (c : Nat) :
    openOf c w ≤ 1 := by
  have iv := inv_reach hk hr
  refine Nat.le_trans (openOf_le c w (w.client c).own (fun j h1 h2 => iv.live c j h1 h2)) ?_
  split <;> omega

/-- A request of a client that was not given a session goes out over an open session of its own - also the first one after closing. -/
theorem C89_request_open (hk : Known cfg users) {h : List Ev} {w w' : World} (hr : run cfg (World.init users) h = some w) (c : Nat)
    (hg : ¬ Given cfg c) (hs : step cfg w (.start c) = some w') :
    ∃ i, (w'.client c).flight = some ⟨i, false⟩ ∧ (w'.session i).closed = false ∧ (w'.session i).maker = some c := by
  have iv := inv_reach hk hr
  simp only [step] at hs
  cases hf : (w.client c).flight with
  | some f => rw [hf] at hs; cases hs
  | none =>
    rw [hf] at hs
    cases hs
    obtain ⟨_, hb, hcl, _⟩ := client_spec hk iv c
    unfold start
    have ha := client_again (cfg := cfg) c w (fun s => { s with jar := Jar.empty })
    generalize client cfg c w = r at *
    obtain ⟨i, w1⟩ := r
    simp only at *
    rw [ha]
    refine ⟨i, by simp, ?_, ?_⟩
    · simp [hcl hg]
    · rcases hb with hb | ⟨_, hb⟩
      · exact absurd ⟨i, hb⟩ hg
      · simp [hb]

example : ∃ w, run exampleCfg (World.init 1) [.start 2, .head 2 [], .done 2 "a", .close 2] = some w ∧ openOf 2 w = 0 ∧
    ∃ w', step exampleCfg w (.start 2) = some w' ∧ openOf 2 w' = 1 := ⟨_, rfl, rfl, _, rfl, rfl⟩

/-- A client without an open session keeps none while it makes no request. -/
theorem silent_none (hk : Known cfg users) (c : Nat) {h : List Ev} {w w' : World} (iv : Inv cfg users h w) (ho : (w.client c).own = none)
    (h₂ : List Ev) (hs : Silent c h₂) (hr : run cfg w h₂ = some w') : (w'.client c).own = none := by
  induction h₂ generalizing h w with
  | nil => cases hr; exact ho
  | cons e es ih =>
    simp only [run] at hr
    cases he : step cfg w e with
    | none => rw [he] at hr; cases hr
    | some w1 =>
      rw [he] at hr
      refine ih (inv_step hk iv e he) ?_ (fun hm => hs (List.mem_cons_of_mem _ hm)) hr
      have hclient : ∀ d (w : World), d ≠ c → ((client cfg d w).2.client c).own = (w.client c).own := by
        intro d w hd
        unfold client
        split
        · rfl
        · split
          · rfl
          · show (if c = d then _ else _ : Client).own = _
            rw [if_neg (fun h => hd h.symm)]; rfl
      cases e with
      | start d =>
        have hd : d ≠ c := fun hd => hs (by rw [hd]; exact List.mem_cons_self)
        simp only [step] at he
        split at he
        · cases he
        · cases he
          unfold start
          simp only [setClient_client, if_neg (fun h => hd h.symm : ¬ c = d)]
          rw [hclient d _ hd]
          simp only [setSession_client]
          rw [hclient d _ hd, ho]
      | head d cs =>
        simp only [step] at he
        split at he
        · split at he
          · cases he
          · cases he
            simp only [setClient_client, setSession_client]
            split
            · rename_i hd; rw [← hd]; exact ho
            · exact ho
        · cases he
      | done d n =>
        simp only [step] at he
        split at he
        · rename_i i hf
          split at he
          · cases he
          · rename_i hcl
            cases he
            by_cases hd : d = c
            · subst hd
              rcases iv.flight d _ hf with hb | ⟨hb, hm⟩
              · have : client cfg d (w.setClient d { w.client d with flight := none }) =
                    (i, w.setClient d { w.client d with flight := none }) := by
                  unfold client
                  rw [hb]
                simp only [getCookie, this, setClient_client, if_pos]
                exact ho
              · have := iv.live d i hm (by simpa using hcl)
                rw [ho] at this
                cases this
            · simp only [getCookie, setClient_client, if_neg (fun h => hd h.symm : ¬ c = d)]
              rw [hclient d _ hd, setClient_client, if_neg (fun h => hd h.symm : ¬ c = d)]
              exact ho
        · cases he
      | fails d =>
        simp only [step] at he
        split at he
        · cases he
          simp only [setClient_client]
          split
          · rename_i hd; rw [← hd]; exact ho
          · exact ho
        · cases he
      | close d =>
        cases he
        unfold close
        split
        · exact ho
        · simp only [setSession_client, setClient_client]
          split
          · rfl
          · exact ho
      | userCloses i =>
        simp only [step] at he
        split at he
        · cases he; exact ho
        · cases he

/-- After closing a client nothing it opened is open, as long as it makes no further request. -/
theorem C89_closed (hk : Known cfg users) {h₁ h₂ : List Ev} {w : World} (c : Nat) (hs : Silent c h₂)
    (hr : run cfg (World.init users) (h₁ ++ .close c :: h₂) = some w) : openOf c w = 0 := by
  have iv := inv_reach hk hr
  rw [run_append] at hr
  cases h1 : run cfg (World.init users) h₁ with
  | none => rw [h1] at hr; cases hr
  | some w1 =>
    rw [h1] at hr
    have iv1 := inv_reach hk h1
    have iv2 := inv_step hk iv1 (.close c) rfl
    have hown : ((close c w1).client c).own = none := by
      unfold close
      split
      · assumption
      · simp
    have := silent_none hk c iv2 hown h₂ hs hr
    have hle := openOf_le c w (w.client c).own (fun j h1 h2 => iv.live c j h1 h2)
    rw [this] at hle
    exact Nat.le_zero.1 hle

example : ∃ w, run exampleCfg (World.init 1) ([.start 2, .head 2 [], .done 2 "a", .start 2] ++ .close 2 :: [.fails 2, .start 0, .close 2])
    = some w ∧ openOf 2 w = 0 := ⟨_, rfl, rfl⟩

/-- Closing does not wait for a query that is going on: the retry after the failed request opens a session again, and nobody closes it. -/
theorem C89_close_in_flight : ∃ h₁ h₂ w, run exampleCfg (World.init 1) (h₁ ++ .close 3 :: h₂) = some w ∧ openOf 3 w = 1 :=
  ⟨[.start 3], [.fails 3, .start 3, .head 3 [], .done 3 "TP_SESSIONID"], _, rfl, rfl⟩

/-- What a `done` event reads, by the invariant. -/
theorem done_reads (hk : Known cfg users) {h : List Ev} {w w' : World} (iv : Inv cfg users h w)
    (c : Nat) (hh : ∀ d, Shares cfg c d → (cfg c).host ≠ (cfg d).host) (name : String) (hs : step cfg w (.done c name) = some w') :
    ∃ cs h₂, Since c h cs h₂ ∧ ((w'.client c).got = sent cs name ∨
      ((w'.client c).got = none ∧ ∃ d, Shares cfg c d ∧ Ev.start d ∈ h₂)) := by
  simp only [step] at hs
  split at hs
  · rename_i i hf
    split at hs
    · cases hs
    · rename_i hcl
      cases hs
      obtain ⟨cs, h₂, hsi, hj⟩ := iv.jar c hh i hf
      refine ⟨cs, h₂, hsi, ?_⟩
      have hget : client cfg c (w.setClient c { w.client c with flight := none }) =
          (i, w.setClient c { w.client c with flight := none }) := by
        rcases iv.flight c _ hf with hb | ⟨hb, hm⟩
        · unfold client
          rw [hb]
        · have := iv.live c i hm (by simpa using hcl)
          have hng : ∀ i, (cfg c).httpClient = some (.session i) → False := fun i hi => hb ⟨i, hi⟩
          unfold client
          split
          · rename_i i hi; exact (hng i hi).elim
          · simp only [setClient_client, if_pos, this]
      simp only [getCookie, hget, setClient_client, if_pos, setClient_session]
      exact hj name
  · cases hs

/-- With a session of its own, a client reads exactly the cookies that the answer to its request brought. -/
theorem C89_own_cookies (hk : Known cfg users) {h : List Ev} {w w' : World} (hr : run cfg (World.init users) h = some w)
    (c : Nat) (name : String) (hc : ∀ d, ¬ Shares cfg c d)
    (hs : step cfg w (.done c name) = some w') : ∃ cs, lastAnswer c h = some cs ∧ (w'.client c).got = sent cs name := by
  obtain ⟨cs, h₂, hsi, hj⟩ := done_reads hk (inv_reach hk hr) c (fun d hd => absurd hd (hc d)) name hs
  refine ⟨cs, hsi.last, ?_⟩
  rcases hj with hj | ⟨_, d, hd, _⟩
  · exact hj
  · exact absurd hd (hc d)

example : ∃ w w', run exampleCfg (World.init 1) [.start 3, .head 3 [("TIMEOUT", "7"), ("TP_SESSIONID", "a"), ("TIMEOUT", "8")]] = some w ∧
    step exampleCfg w (.done 3 "TIMEOUT") = some w' ∧ (w'.client 3).got = some "8" ∧ ∀ d, ¬ Shares exampleCfg 3 d :=
  ⟨_, _, rfl, rfl, by decide, fun _ ⟨_, _, h, _⟩ => by cases h⟩

/-- With a session shared by devices of different hosts, a client reads the cookies of its own device or none: never those of another one,
never those of an earlier answer. -/
theorem C89_shared_cookies (hk : Known cfg users) {h : List Ev} {w w' : World} (hr : run cfg (World.init users) h = some w)
    (c : Nat) (hh : ∀ d, Shares cfg c d → (cfg c).host ≠ (cfg d).host) (name : String) (hs : step cfg w (.done c name) = some w') :
    ∃ cs, lastAnswer c h = some cs ∧ ((w'.client c).got = sent cs name ∨ (w'.client c).got = none) := by
  obtain ⟨cs, h₂, hsi, hj⟩ := done_reads hk (inv_reach hk hr) c hh name hs
  exact ⟨cs, hsi.last, hj.imp id And.left⟩

/-- They are its own unless another client of the session began a request between the head and the end of the answer. -/
theorem C89_undisturbed_cookies (hk : Known cfg users) {h : List Ev} {w w' : World} (hr : run cfg (World.init users) h = some w)
    (c : Nat) (hh : ∀ d, Shares cfg c d → (cfg c).host ≠ (cfg d).host) (name : String) (hu : Undisturbed cfg c h)
    (hs : step cfg w (.done c name) = some w') : ∃ cs, lastAnswer c h = some cs ∧ (w'.client c).got = sent cs name := by
  obtain ⟨cs, h₂, hsi, hj⟩ := done_reads hk (inv_reach hk hr) c hh name hs
  refine ⟨cs, hsi.last, ?_⟩
  rcases hj with hj | ⟨_, d, hd, hm⟩
  · exact hj
  · obtain ⟨h₁, h1⟩ := hsi.split
    exact absurd hm (hu h₁ cs h₂ h1 hsi.head d hd)

example : Undisturbed exampleCfg 0 [.start 1, .start 0, .head 0 [("TP_SESSIONID", "a")]] := by
  intro h₁ cs h₂ h _ d _ hm
  match h₁ with
  | [] => cases h
  | [_] => cases h
  | [_, _] => cases h; cases hm
  | _ :: _ :: _ :: t => have := congrArg List.length h; simp at this

example : ∃ w w', run exampleCfg (World.init 1) [.start 0, .start 1, .head 0 [("TP_SESSIONID", "a")], .head 1 [("TP_SESSIONID", "b")]] = some w ∧
    step exampleCfg w (.done 0 "TP_SESSIONID") = some w' ∧ (w'.client 0).got = some "a" := ⟨_, _, rfl, rfl, by decide⟩

/-- Sharing a session has a price: a device whose request begins at the wrong moment takes away the cookie of another one. -/
theorem C89_shared_cookie_lost : ∃ h w w', run exampleCfg (World.init 1) h = some w ∧ step exampleCfg w (.done 0 "TP_SESSIONID") = some w' ∧
    lastAnswer 0 h = some [("TP_SESSIONID", "a")] ∧ (w'.client 0).got = none :=
  ⟨[.start 0, .head 0 [("TP_SESSIONID", "a")], .start 1], _, _, rfl, rfl, rfl, by decide⟩

end Kasa.HttpSessions
