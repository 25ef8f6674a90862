import Verif.Spec.HttpSessions
/-! # Invariants of HTTP sessions -/

namespace Kasa.HttpSessions

@[simp] theorem setSession_session (w : World) (i j : Nat) (s : Session) :
    (w.setSession i s).session j = if j = i then s else w.session j := rfl
@[simp] theorem setSession_client (w : World) (i : Nat) (s : Session) : (w.setSession i s).client = w.client := rfl
@[simp] theorem setSession_next (w : World) (i : Nat) (s : Session) : (w.setSession i s).next = w.next := rfl
@[simp] theorem setClient_client (w : World) (c d : Nat) (s : Client) :
    (w.setClient c s).client d = if d = c then s else w.client d := rfl
@[simp] theorem setClient_session (w : World) (c : Nat) (s : Client) : (w.setClient c s).session = w.session := rfl
@[simp] theorem setClient_next (w : World) (c : Nat) (s : Client) : (w.setClient c s).next = w.next := rfl

/-! ## Cookies -/

theorem update_other (j : Jar) (host h n : String) (cs : List (String × String)) (hh : h ≠ host) : j.update host cs h n = j h n := by
  induction cs generalizing j with
  | nil => rfl
  | cons c cs ih =>
    show Jar.update _ host cs h n = _
    rw [ih]; simp [hh]

theorem update_own (j : Jar) (host n : String) (cs : List (String × String)) :
    j.update host cs host n = (sent cs n).or (j host n) := by
  induction cs generalizing j with
  | nil => simp [Jar.update, sent]
  | cons c cs ih =>
    show Jar.update _ host cs host n = _
    rw [ih]
    simp only [sent, List.reverse_cons, List.find?_append]
    cases hf : cs.reverse.find? (fun c => c.1 == n) with
    | some x => simp
    | none =>
      by_cases hc : c.1 = n
      · subst hc; simp
      · have : ¬ n = c.1 := fun h => hc h.symm
        simp [hc, this]

theorem update_empty (host n : String) (cs : List (String × String)) : Jar.empty.update host cs host n = sent cs n := by
  rw [update_own]; simp [Jar.empty]

/-! ## The last answer -/

/-- The history since the head of the last answer. -/
structure Since (c : Nat) (h : List Ev) (cs : List (String × String)) (h₂ : List Ev) : Prop where
  split : ∃ h₁, h = h₁ ++ .head c cs :: h₂
  head : ∀ cs', Ev.head c cs' ∉ h₂
  start : Ev.start c ∉ h₂

theorem Since.new (c : Nat) (h : List Ev) (cs : List (String × String)) : Since c (h ++ [.head c cs]) cs [] :=
  ⟨⟨h, rfl⟩, by simp, by simp⟩

theorem Since.snoc {c : Nat} {h h₂ : List Ev} {cs : List (String × String)} (s : Since c h cs h₂) (e : Ev)
    (hh : ∀ cs', e ≠ .head c cs') (hs : e ≠ .start c) : Since c (h ++ [e]) cs (h₂ ++ [e]) := by
  obtain ⟨⟨h₁, rfl⟩, hd, st⟩ := s
  refine ⟨⟨h₁, by simp⟩, fun cs' hm => ?_, fun hm => ?_⟩
  · rcases List.mem_append.1 hm with hm | hm
    · exact hd cs' hm
    · exact hh cs' (List.mem_singleton.1 hm).symm
  · rcases List.mem_append.1 hm with hm | hm
    · exact st hm
    · exact hs (List.mem_singleton.1 hm).symm

theorem fold_keeps (c : Nat) (h₂ : List Ev) (hd : ∀ cs', Ev.head c cs' ∉ h₂) (st : Ev.start c ∉ h₂)
    (a : Option (List (String × String))) :
    h₂.foldl (fun a e => match e with
      | .start d => if d = c then none else a
      | .head d cs => if d = c then some cs else a
      | _ => a) a = a := by
  induction h₂ generalizing a with
  | nil => rfl
  | cons e es ih =>
    have hd' : ∀ cs', Ev.head c cs' ∉ es := fun cs' hm => hd cs' (List.mem_cons_of_mem _ hm)
    have st' : Ev.start c ∉ es := fun hm => st (List.mem_cons_of_mem _ hm)
    rw [List.foldl_cons, ih hd' st']
    cases e with
    | start d =>
      have : d ≠ c := fun h => st (by rw [h]; exact List.mem_cons_self)
      simp [this]
    | head d cs =>
      have : d ≠ c := fun h => hd cs (by rw [h]; exact List.mem_cons_self)
      simp [this]
    | _ => rfl

theorem Since.last {c : Nat} {h h₂ : List Ev} {cs : List (String × String)} (s : Since c h cs h₂) : lastAnswer c h = some cs := by
  obtain ⟨⟨h₁, rfl⟩, hd, st⟩ := s
  simp only [lastAnswer, List.foldl_append, List.foldl_cons, if_pos]
  exact fold_keeps c h₂ hd st _

/-! ## The invariant -/

section
variable (cfg : Nat → Config) (users : Nat)

/-- The session number `i` belongs to the client: given by the user, or made by it. -/
def Belongs (w : World) (c i : Nat) : Prop :=
  (cfg c).httpClient = some (.session i) ∨ (¬ Given cfg c ∧ (w.session i).maker = some c)

structure Inv (h : List Ev) (w : World) : Prop where
  grows : users ≤ w.next
  made : ∀ i c, (w.session i).maker = some c → users ≤ i ∧ i < w.next ∧ ¬ Given cfg c
  own : ∀ c i, (w.client c).own = some i → (w.session i).maker = some c ∧ (w.session i).closed = false
  live : ∀ c i, (w.session i).maker = some c → (w.session i).closed = false → (w.client c).own = some i
  users : ∀ i, i < users → (w.session i).closed = true → Ev.userCloses i ∈ h
  flight : ∀ c f, (w.client c).flight = some f → Belongs cfg w c f.session
  jar : ∀ c, (∀ d, Shares cfg c d → (cfg c).host ≠ (cfg d).host) → ∀ i, (w.client c).flight = some ⟨i, true⟩ →
    ∃ cs h₂, Since c h cs h₂ ∧ ∀ n, (w.session i).jar (cfg c).host n = sent cs n ∨
      ((w.session i).jar (cfg c).host n = none ∧ ∃ d, Shares cfg c d ∧ Ev.start d ∈ h₂)
  fresh : ∀ c i, (w.client c).flight = some ⟨i, false⟩ →
    (∀ d, Shares cfg c d → (cfg c).host ≠ (cfg d).host) → ∀ n, (w.session i).jar (cfg c).host n = none

theorem inv_init : Inv cfg users [] (World.init users) := by
  constructor <;> simp [World.init]

variable {cfg} {users}

theorem belongs_two (hk : Known cfg users) {h : List Ev} {w : World} (iv : Inv cfg users h w) {c d i : Nat} (hc : Belongs cfg w c i)
    (hd : Belongs cfg w d i) (hne : c ≠ d) : Shares cfg c d := by
  rcases hc with hc | ⟨_, hc⟩ <;> rcases hd with hd | ⟨_, hd⟩
  · exact ⟨hne, i, hc, hd⟩
  · have := (iv.made i d hd).1
    have := hk c i hc
    omega
  · have := (iv.made i c hc).1
    have := hk d i hd
    omega
  · rw [hc] at hd
    exact absurd (Option.some.inj hd) hne

/-- What `HttpClient.client` gives. -/
theorem client_spec (hk : Known cfg users) {h : List Ev} {w : World} (iv : Inv cfg users h w) (c : Nat) :
    Inv cfg users h (client cfg c w).2 ∧ Belongs cfg (client cfg c w).2 c (client cfg c w).1 ∧
    (¬ Given cfg c → ((client cfg c w).2.session (client cfg c w).1).closed = false) ∧
    (∀ d, ((client cfg c w).2.client d).flight = (w.client d).flight) ∧
    (∀ d, ((client cfg c w).2.client d).got = (w.client d).got) ∧
    (¬ Given cfg c → ((client cfg c w).2.client c).own = some (client cfg c w).1) ∧
    (Given cfg c → (client cfg c w).2 = w) := by
  unfold client
  split
  · rename_i i hi
    have hg : Given cfg c := ⟨i, hi⟩
    exact ⟨iv, .inl hi, fun h => absurd hg h, fun _ => rfl, fun _ => rfl, fun h => absurd hg h, fun _ => rfl⟩
  · rename_i hng
    have hg : ¬ Given cfg c := fun ⟨i, hi⟩ => hng i hi
    cases ho : (w.client c).own with
    | some i =>
      have := iv.own c i ho
      exact ⟨iv, .inr ⟨hg, this.1⟩, fun _ => this.2, fun _ => rfl, fun _ => rfl, fun _ => ho, fun h => absurd h hg⟩
    | none =>
      have hlt : ∀ i d, (w.session i).maker = some d → i ≠ w.next := fun i d hm => by have := (iv.made i d hm).2.1; omega
      have hfl : ∀ d, (({ (w.setSession w.next { maker := some c }).setClient c { w.client c with own := some w.next } with
          next := w.next + 1 } : World).client d).flight = (w.client d).flight := fun d => by
        show (if d = c then _ else _ : Client).flight = _
        split
        · rename_i hd; rw [hd]
        · rfl
      have hbel : ∀ d f, (w.client d).flight = some f → f.session ≠ w.next := by
        intro d f hf
        have hu := iv.grows
        rcases iv.flight d f hf with hb | ⟨_, hb⟩
        · have := hk _ _ hb
          omega
        · have := (iv.made _ _ hb).2.1
          omega
      refine ⟨?_, .inr ⟨hg, by simp⟩, fun _ => by simp, hfl, fun d => ?_, fun _ => by simp, fun h => absurd h hg⟩
      · constructor
        · show users ≤ w.next + 1
          have := iv.grows
          omega
        · intro i d hm
          show users ≤ i ∧ i < w.next + 1 ∧ _
          simp only [setClient_session, setSession_session] at hm
          by_cases hi : i = w.next
          · rw [if_pos hi] at hm
            have hd : c = d := Option.some.inj hm
            subst hd
            have := iv.grows
            exact ⟨by omega, by omega, hg⟩
          · rw [if_neg hi] at hm
            obtain ⟨h1, h2, h3⟩ := iv.made i d hm
            exact ⟨h1, by omega, h3⟩
        · intro d i hd
          simp only [setClient_session, setSession_session, setClient_client, setSession_client] at hd ⊢
          by_cases hdc : d = c
          · rw [if_pos hdc] at hd
            have hi : w.next = i := Option.some.inj hd
            subst hi; subst hdc
            simp
          · rw [if_neg hdc] at hd
            have := iv.own d i hd
            rw [if_neg (hlt i d this.1)]
            exact this
        · intro d i hm hcl
          simp only [setClient_session, setSession_session, setClient_client, setSession_client] at hm hcl ⊢
          by_cases hi : i = w.next
          · rw [if_pos hi] at hm
            have hd : c = d := Option.some.inj hm
            subst hd
            simp [hi]
          · rw [if_neg hi] at hm hcl
            have h1 := iv.live d i hm hcl
            have hdc : d ≠ c := fun hdc => by rw [hdc, ho] at h1; cases h1
            rw [if_neg hdc]
            exact h1
        · intro i hi hcl
          have := iv.grows
          have hne : i ≠ w.next := by omega
          simp only [setClient_session, setSession_session, if_neg hne] at hcl
          exact iv.users i hi hcl
        · intro d f hf
          rw [hfl d] at hf
          rcases iv.flight d f hf with hb | ⟨h1, h2⟩
          · exact .inl hb
          · refine .inr ⟨h1, ?_⟩
            simp only [setClient_session, setSession_session, if_neg (hbel d f hf)]
            exact h2
        · intro d hh i hf
          rw [hfl d] at hf
          have := hbel d _ hf
          simp only [setClient_session, setSession_session]
          rw [if_neg this]
          exact iv.jar d hh i hf
        · intro d i hf hh
          rw [hfl d] at hf
          have := hbel d _ hf
          simp only [setClient_session, setSession_session]
          rw [if_neg this]
          exact iv.fresh d i hf hh
      · show (if d = c then _ else _ : Client).got = _
        split
        · rename_i hd; rw [hd]
        · rfl

theorem client_again (c : Nat) (w : World) (f : Session → Session) :
    client cfg c ((client cfg c w).2.setSession (client cfg c w).1 (f ((client cfg c w).2.session (client cfg c w).1))) =
      ((client cfg c w).1, (client cfg c w).2.setSession (client cfg c w).1 (f ((client cfg c w).2.session (client cfg c w).1))) := by
  unfold client
  split
  · rfl
  · cases ho : (w.client c).own with
    | some i => simp [ho]
    | none => simp

/-- An event that is neither a request nor an answer of a client waiting for the rest of its answer. -/
theorem Inv.later {h : List Ev} {w : World} (iv : Inv cfg users h w) (e : Ev)
    (he : ∀ c i, (w.client c).flight = some ⟨i, true⟩ → (∀ cs, e ≠ .head c cs) ∧ e ≠ .start c) : Inv cfg users (h ++ [e]) w := by
  refine { iv with users := fun i hi hc => List.mem_append_left _ (iv.users i hi hc), jar := fun c hh i hf => ?_ }
  obtain ⟨cs, h₂, hs, hj⟩ := iv.jar c hh i hf
  refine ⟨cs, h₂ ++ [e], hs.snoc e (he c i hf).1 (he c i hf).2, fun n => ?_⟩
  rcases hj n with hj | ⟨hj, d, hd, hm⟩
  · exact .inl hj
  · exact .inr ⟨hj, d, hd, List.mem_append_left _ hm⟩

/-- A change of clients that keeps what matters. -/
theorem Inv.clients {h : List Ev} {w : World} (iv : Inv cfg users h w) (c : Nat) (s : Client) (ho : s.own = (w.client c).own)
    (hf : ∀ f, s.flight = some f → (w.client c).flight = some f) : Inv cfg users h (w.setClient c s) := by
  have hown : ∀ d, ((w.setClient c s).client d).own = (w.client d).own := fun d => by
    rw [setClient_client]; split
    · rename_i hd; rw [hd, ho]
    · rfl
  have hfl : ∀ d f, ((w.setClient c s).client d).flight = some f → (w.client d).flight = some f := fun d f => by
    rw [setClient_client]; split
    · rename_i hd; rw [hd]; exact hf f
    · exact id
  exact ⟨iv.grows, iv.made, fun d i hd => iv.own d i (hown d ▸ hd), fun d i h1 h2 => (hown d).trans (iv.live d i h1 h2), iv.users,
    fun d f hd => iv.flight d f (hfl d f hd), fun d hh i hd => iv.jar d hh i (hfl d _ hd), fun d i hd hh => iv.fresh d i (hfl d _ hd) hh⟩

theorem inv_start (hk : Known cfg users) {h : List Ev} {w : World} (iv : Inv cfg users h w) (c : Nat) (hc : (w.client c).flight = none) :
    Inv cfg users (h ++ [.start c]) (start cfg c w) := by
  obtain ⟨iv1, hb, _, hfl, _, _, _⟩ := client_spec hk iv c
  unfold start
  have ha := client_again (cfg := cfg) c w (fun s => { s with jar := Jar.empty })
  generalize client cfg c w = r at *
  obtain ⟨i, w1⟩ := r
  simp only at *
  rw [ha]
  simp only
  have hc1 : (w1.client c).flight = none := (hfl c).trans hc
  have iv2 := iv1.later (.start c) (fun d j hd => ⟨by simp, fun he => by cases he; rw [hc1] at hd; cases hd⟩)
  have hsess : ∀ j, (((w1.setSession i { w1.session i with jar := Jar.empty }).session j).maker = (w1.session j).maker) ∧
      (((w1.setSession i { w1.session i with jar := Jar.empty }).session j).closed = (w1.session j).closed) := fun j => by
    rw [setSession_session]; split
    · rename_i hj; subst hj; exact ⟨rfl, rfl⟩
    · exact ⟨rfl, rfl⟩
  refine ⟨iv2.grows, fun j d hm => iv2.made j d ((hsess j).1 ▸ hm), fun d j hd => ?_, fun d j h1 h2 => ?_,
    fun j hj hcl => iv2.users j hj ((hsess j).2 ▸ hcl), fun d f hd => ?_, fun d hh j hd => ?_, fun d j hd hh n => ?_⟩
  · show ((World.setSession _ _ _).session j).maker = _ ∧ ((World.setSession _ _ _).session j).closed = _
    rw [(hsess j).1, (hsess j).2]
    refine iv2.own d j ?_
    simp only [setClient_client, setSession_client] at hd
    split at hd
    · rename_i hdc; rw [hdc]; exact hd
    · exact hd
  · have := iv2.live d j ((hsess j).1 ▸ h1) ((hsess j).2 ▸ h2)
    simp only [setClient_client, setSession_client]
    split
    · rename_i hdc; rw [← hdc]; exact this
    · exact this
  · simp only [setClient_client, setSession_client] at hd
    have : Belongs cfg w1 d f.session := by
      split at hd
      · rename_i hdc
        cases hd
        rw [hdc]; exact hb
      · exact iv2.flight d f hd
    rcases this with h1 | ⟨h1, h2⟩
    · exact .inl h1
    · exact .inr ⟨h1, (hsess _).1.trans h2⟩
  · simp only [setClient_client, setSession_client] at hd
    split at hd
    · cases hd
    · rename_i hdc
      obtain ⟨cs, h₂, hs, hj⟩ := iv1.jar d hh j hd
      refine ⟨cs, h₂ ++ [.start c], hs.snoc _ (fun _ => by simp) (fun he => hdc (by cases he; rfl)), fun n => ?_⟩
      simp only [setClient_session, setSession_session]
      by_cases hji : j = i
      · subst hji
        rw [if_pos rfl]
        exact .inr ⟨rfl, c, belongs_two hk iv1 (iv1.flight d _ hd) hb hdc, by simp⟩
      · rw [if_neg hji]
        rcases hj n with hj | ⟨hj, x, hx, hm⟩
        · exact .inl hj
        · exact .inr ⟨hj, x, hx, List.mem_append_left _ hm⟩
  · simp only [setClient_client, setSession_client] at hd
    simp only [setClient_session, setSession_session]
    split
    · rfl
    · rename_i hji
      split at hd
      · cases hd; exact absurd rfl hji
      · exact iv1.fresh d j hd hh n

theorem inv_head (hk : Known cfg users) {h : List Ev} {w : World} (iv : Inv cfg users h w) (c i : Nat) (cs : List (String × String))
    (hc : (w.client c).flight = some ⟨i, false⟩) :
    Inv cfg users (h ++ [.head c cs]) ((w.setSession i { w.session i with jar := (w.session i).jar.update (cfg c).host cs }).setClient c
      { w.client c with flight := some ⟨i, true⟩ }) := by
  have hb := iv.flight c _ hc
  have hsess : ∀ j, (((w.setSession i { w.session i with jar := (w.session i).jar.update (cfg c).host cs }).session j).maker =
      (w.session j).maker) ∧ (((w.setSession i { w.session i with jar := (w.session i).jar.update (cfg c).host cs }).session j).closed =
      (w.session j).closed) := fun j => by
    rw [setSession_session]; split
    · rename_i hj; subst hj; exact ⟨rfl, rfl⟩
    · exact ⟨rfl, rfl⟩
  have hjar : ∀ d, (∀ x, Shares cfg d x → (cfg d).host ≠ (cfg x).host) → ∀ j b, d ≠ c → (w.client d).flight = some ⟨j, b⟩ → ∀ n,
      ((w.setSession i { w.session i with jar := (w.session i).jar.update (cfg c).host cs }).session j).jar (cfg d).host n =
        (w.session j).jar (cfg d).host n := by
    intro d hh j b hdc hd n
    rw [setSession_session]
    split
    · rename_i hj
      subst hj
      exact update_other _ _ _ _ _ (hh c (belongs_two hk iv (iv.flight d _ hd) hb hdc))
    · rfl
  refine ⟨iv.grows, fun j d hm => iv.made j d ((hsess j).1 ▸ hm), fun d j hd => ?_, fun d j h1 h2 => ?_,
    fun j hj hcl => List.mem_append_left _ (iv.users j hj ((hsess j).2 ▸ hcl)), fun d f hd => ?_, fun d hh j hd => ?_,
    fun d j hd hh n => ?_⟩
  · show ((World.setSession _ _ _).session j).maker = _ ∧ ((World.setSession _ _ _).session j).closed = _
    rw [(hsess j).1, (hsess j).2]
    refine iv.own d j ?_
    simp only [setClient_client, setSession_client] at hd
    split at hd
    · rename_i hdc; rw [hdc]; exact hd
    · exact hd
  · have := iv.live d j ((hsess j).1 ▸ h1) ((hsess j).2 ▸ h2)
    simp only [setClient_client, setSession_client]
    split
    · rename_i hdc; rw [← hdc]; exact this
    · exact this
  · simp only [setClient_client, setSession_client] at hd
    have : Belongs cfg w d f.session := by
      split at hd
      · rename_i hdc
        cases hd
        rw [hdc]; exact hb
      · exact iv.flight d f hd
    rcases this with h1 | ⟨h1, h2⟩
    · exact .inl h1
    · exact .inr ⟨h1, (hsess _).1.trans h2⟩
  · simp only [setClient_client, setSession_client] at hd
    split at hd
    · rename_i hdc
      cases hd
      subst hdc
      refine ⟨cs, [], Since.new _ _ _, fun n => .inl ?_⟩
      simp only [setClient_session, setSession_session, if_pos]
      rw [update_own, iv.fresh _ _ hc hh n]
      simp
    · rename_i hdc
      obtain ⟨cs', h₂, hs, hj⟩ := iv.jar d hh j hd
      refine ⟨cs', h₂ ++ [.head c cs], hs.snoc _ (fun _ he => hdc (by cases he; rfl)) (by simp), fun n => ?_⟩
      rw [setClient_session, hjar d hh j true hdc hd n]
      rcases hj n with hj | ⟨hj, x, hx, hm⟩
      · exact .inl hj
      · exact .inr ⟨hj, x, hx, List.mem_append_left _ hm⟩
  · simp only [setClient_client, setSession_client] at hd
    split at hd
    · cases hd
    · rename_i hdc
      rw [setClient_session, hjar d hh j false hdc hd n]
      exact iv.fresh d j hd hh n

theorem inv_close {h : List Ev} {w : World} (iv : Inv cfg users h w) (c : Nat) : Inv cfg users h (close c w) := by
  unfold close
  cases ho : (w.client c).own with
  | none => exact iv
  | some i =>
    show Inv cfg users h ((w.setClient c { w.client c with own := none }).setSession i { w.session i with closed := true })
    have hm := iv.own c i ho
    have hfl : ∀ d, (((w.setClient c { w.client c with own := none }).setSession i { w.session i with closed := true }).client d).flight =
        (w.client d).flight := fun d => by
      simp only [setClient_client, setSession_client]
      split
      · rename_i hd; rw [hd]
      · rfl
    have hsess : ∀ j, (((w.setClient c { w.client c with own := none }).setSession i { w.session i with closed := true }).session j).maker =
        (w.session j).maker ∧ (((w.setClient c { w.client c with own := none }).setSession i
          { w.session i with closed := true }).session j).jar = (w.session j).jar := fun j => by
      simp only [setSession_session, setClient_session]
      split
      · rename_i hj; rw [hj]; exact ⟨rfl, rfl⟩
      · exact ⟨rfl, rfl⟩
    refine ⟨iv.grows, fun j d hm => iv.made j d ((hsess j).1 ▸ hm), fun d j hd => ?_, fun d j h1 h2 => ?_, fun j hj hcl => ?_,
      fun d f hd => ?_, fun d hh j hd => ?_, fun d j hd hh n => ?_⟩
    · simp only [setClient_client, setSession_client] at hd
      split at hd
      · cases hd
      · rename_i hdc
        have := iv.own d j hd
        have hji : j ≠ i := fun hji => by rw [hji, hm.1] at this; exact hdc (Option.some.inj this.1).symm
        simp only [setSession_session, setClient_session, if_neg hji]
        exact this
    · rw [(hsess j).1] at h1
      have hji : j ≠ i := fun hji => by rw [hji] at h2; simp at h2
      simp only [setSession_session, setClient_session, if_neg hji] at h2
      have hl := iv.live d j h1 h2
      have hdc : d ≠ c := fun hdc => by rw [hdc, ho] at hl; exact hji (Option.some.inj hl).symm
      simp only [setClient_client, setSession_client, if_neg hdc]
      exact hl
    · have := (iv.made i c hm.1).1
      have hji : j ≠ i := by omega
      simp only [setSession_session, setClient_session, if_neg hji] at hcl
      exact iv.users j hj hcl
    · rw [hfl d] at hd
      rcases iv.flight d f hd with h1 | ⟨h1, h2⟩
      · exact .inl h1
      · exact .inr ⟨h1, (hsess _).1.trans h2⟩
    · rw [hfl d] at hd
      rw [(hsess j).2]
      exact iv.jar d hh j hd
    · rw [hfl d] at hd
      rw [(hsess j).2]
      exact iv.fresh d j hd hh n

theorem inv_userCloses {h : List Ev} {w : World} (iv : Inv cfg users h w) (i : Nat) (hi : (w.session i).maker = none) :
    Inv cfg users (h ++ [.userCloses i]) (w.setSession i { w.session i with closed := true }) := by
  have hsess : ∀ j, ((w.setSession i { w.session i with closed := true }).session j).maker = (w.session j).maker ∧
      ((w.setSession i { w.session i with closed := true }).session j).jar = (w.session j).jar := fun j => by
    simp only [setSession_session]
    split
    · rename_i hj; rw [hj]; exact ⟨rfl, rfl⟩
    · exact ⟨rfl, rfl⟩
  have hcl : ∀ j d, (w.session j).maker = some d → (w.setSession i { w.session i with closed := true }).session j = w.session j :=
    fun j d hm => by
      rw [setSession_session, if_neg (fun hji => by rw [hji, hi] at hm; cases hm)]
  have iv2 := iv.later (.userCloses i) (fun d j hd => ⟨by simp, by simp⟩)
  refine ⟨iv.grows, fun j d hm => iv.made j d ((hsess j).1 ▸ hm), fun d j hd => ?_, fun d j h1 h2 => ?_, fun j hj hc => ?_,
    fun d f hd => ?_, fun d hh j hd => ?_, fun d j hd hh n => ?_⟩
  · have := iv.own d j hd
    rw [hcl j d this.1]
    exact this
  · rw [(hsess j).1] at h1
    rw [hcl j d h1] at h2
    exact iv.live d j h1 h2
  · by_cases hji : j = i
    · rw [hji]; simp
    · rw [setSession_session, if_neg hji] at hc
      exact iv2.users j hj hc
  · rcases iv.flight d f hd with h1 | ⟨h1, h2⟩
    · exact .inl h1
    · exact .inr ⟨h1, (hsess _).1.trans h2⟩
  · rw [(hsess j).2]
    exact iv2.jar d hh j hd
  · rw [(hsess j).2]
    exact iv.fresh d j hd hh n

/-- The steps keep the invariant. -/
theorem inv_step (hk : Known cfg users) {h : List Ev} {w w' : World} (iv : Inv cfg users h w) (e : Ev) (hs : step cfg w e = some w') :
    Inv cfg users (h ++ [e]) w' := by
  cases e with
  | start c =>
    simp only [step] at hs
    cases hf : (w.client c).flight with
    | some f => rw [hf] at hs; cases hs
    | none =>
      rw [hf] at hs
      cases hs
      exact inv_start hk iv c hf
  | head c cs =>
    simp only [step] at hs
    split at hs
    · rename_i i hf
      split at hs
      · cases hs
      · cases hs
        exact inv_head hk iv c i cs hf
    · cases hs
  | done c n =>
    simp only [step] at hs
    split at hs
    · rename_i i hf
      split at hs
      · cases hs
      · cases hs
        have iv1 := (iv.later (.done c n) (fun _ _ _ => ⟨by simp, by simp⟩)).clients c { w.client c with flight := none } rfl
          (fun f h => by cases h)
        have iv2 := (client_spec hk iv1 c).1
        exact iv2.clients c _ rfl (fun f h => h)
    · cases hs
  | fails c =>
    simp only [step] at hs
    split at hs
    · cases hs
      exact (iv.later (.fails c) (fun _ _ _ => ⟨by simp, by simp⟩)).clients c _ rfl (fun f h => by cases h)
    · cases hs
  | close c =>
    cases hs
    exact inv_close (iv.later (.close c) (fun _ _ _ => ⟨by simp, by simp⟩)) c
  | userCloses i =>
    simp only [step] at hs
    split at hs
    · rename_i hm
      cases hs
      exact inv_userCloses iv i hm
    · cases hs

theorem inv_run (hk : Known cfg users) {h : List Ev} {w w' : World} (iv : Inv cfg users h w) (es : List Ev)
    (hr : run cfg w es = some w') : Inv cfg users (h ++ es) w' := by
  induction es generalizing h w with
  | nil => cases hr; simpa using iv
  | cons e es ih =>
    simp only [run] at hr
    cases hs : step cfg w e with
    | none => rw [hs] at hr; cases hr
    | some w1 =>
      rw [hs] at hr
      have := ih (inv_step hk iv e hs) hr
      simpa using this

/-- What holds after every history. -/
theorem inv_reach (hk : Known cfg users) {h : List Ev} {w : World} (hr : run cfg (World.init users) h = some w) : Inv cfg users h w := by
  simpa using inv_run hk (inv_init cfg users) h hr

theorem run_append (w : World) (h₁ h₂ : List Ev) : run cfg w (h₁ ++ h₂) = (run cfg w h₁).bind fun w => run cfg w h₂ := by
  induction h₁ generalizing w with
  | nil => rfl
  | cons e es ih =>
    simp only [List.cons_append, run]
    cases step cfg w e with
    | none => rfl
    | some w1 => exact ih w1

end

end Kasa.HttpSessions
