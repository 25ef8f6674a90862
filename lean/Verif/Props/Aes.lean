import Verif.Lemmas.Aes
/-!
# C13 for the AES transport
-/

namespace Kasa.Aes
open PyM AesSpec

section
variable {σ : Type} (c : BlockCipher) (env : Env σ) (cfg : Config)

theorem history_inv (w : σ) (ops : List Op) :
    Inv c env cfg (fun m => .send m ∈ ops) (history c env cfg w ops) := by
  suffices hgen : ∀ (todo done : List Op) (s : St σ), Inv c env cfg (fun m => .send m ∈ done ++ todo) s →
      Inv c env cfg (fun m => .send m ∈ done ++ todo) (todo.foldl (step c env cfg) s) by
    have h0 : Inv c env cfg (fun m => .send m ∈ [] ++ ops) ({ world := w } : St σ) := by
      refine ⟨?_, by simp⟩
      intro before what url body ck out after hlog
      simp at hlog
    exact hgen ops [] _ h0
  intro todo
  induction todo with
  | nil => intro done s hi; exact hi
  | cons op ops ih =>
    intro done s hi
    have hstep : Inv c env cfg (fun m => .send m ∈ done ++ op :: ops) (step c env cfg s op) := by
      cases op with
      | send m => exact send_inv c env cfg m (by simp) hi
      | reset => exact reset_inv c env cfg hi
    have := ih (done ++ [op]) (step c env cfg s op) (by simpa using hstep)
    simpa using this

/-- C13 (AES): in every history of calls on one transport object, with any device, clock, cookies and failures, an
application request is only posted when a handshake and after it a login were completed since the last reset and since
the device last refused the session, to the address with the token of that login, encrypted with the key of that
handshake and carrying a message the caller asked to send; and the handshake was made in this very call, or a clock
reading in this call was before the session's deadline (announced lifetime minus 20 minutes).

Partial: excluded are requests after a handshake that the device answered with a session key that cannot be read; for
these the property is false (`C13_aes_bad_key`). -/
theorem C13_aes_partial (w : σ) (ops : List Op) (before after : List Ev) (url : Url) (body : Body)
    (cookies : Option String) (outcome : Except Exc (Int × Json))
    (hlog : (history c env cfg w ops).log = before ++ .post .request url body cookies outcome :: after)
    (hgood : (observe c cfg env.int before).badKey = false) :
    RequestAllowed c (fun m => .send m ∈ ops) (observe c cfg env.int before) url body :=
  ((history_inv c env cfg w ops).accepted _ _ _ _ _ _ _ hlog hgood).1 rfl

/-- C13 (AES): the same for logins, which carry the user's or the default credentials only. -/
theorem C13_aes_login_partial (w : σ) (ops : List Op) (before after : List Ev) (url : Url) (body : Body)
    (cookies : Option String) (outcome : Except Exc (Int × Json))
    (hlog : (history c env cfg w ops).log = before ++ .post .login url body cookies outcome :: after)
    (hgood : (observe c cfg env.int before).badKey = false) :
    LoginAllowed c cfg (observe c cfg env.int before) body :=
  ((history_inv c env cfg w ops).accepted _ _ _ _ _ _ _ hlog hgood).2 rfl

/-- C13 (AES): if no device ever answers a handshake with an unreadable key, the property holds without exception. -/
theorem C13_aes_readable_keys (w : σ) (ops : List Op) (before after : List Ev) (url : Url) (body : Body)
    (cookies : Option String) (outcome : Except Exc (Int × Json))
    (hlog : (history c env cfg w ops).log = before ++ .post .request url body cookies outcome :: after)
    (hkeys : .opened none ∉ (history c env cfg w ops).log) :
    RequestAllowed c (fun m => .send m ∈ ops) (observe c cfg env.int before) url body := by
  refine C13_aes_partial c env cfg w ops before after url body cookies outcome hlog ?_
  have hnot : .opened none ∉ before := by
    intro hm
    apply hkeys
    rw [hlog]
    exact List.mem_append_left _ hm
  clear hlog
  have hgen : ∀ (l : List Ev) (o : Obs), .opened none ∉ l → o.badKey = false →
      (l.foldl (see c cfg env.int) o).badKey = false := by
    intro l
    induction l with
    | nil => intro o _ ho; exact ho
    | cons e l ih =>
      intro o hl ho
      refine ih _ (fun h => hl (List.mem_cons_of_mem _ h)) ?_
      cases e with
      | call => exact ho
      | post what url body ck out =>
        cases what with
        | handshake => rfl
        | login =>
          simp only [see]
          split
          · unfold seeLogin
            split
            · exact ho
            · split
              · exact ho
              · split
                · exact ho
                · split
                  · split <;> exact ho
                  · exact ho
          · exact ho
        | request =>
          simp only [see]
          split
          · split <;> exact ho
          · exact ho
      | cookie n v => simp only [see]; split <;> exact ho
      | clock t => simp only [see]; split <;> exact ho
      | opened k =>
        cases k with
        | none => exact absurd (List.mem_cons_self ..) hl
        | some k => exact ho
      | reset => exact ho
  exact hgen before {} hnot rfl

end

/-! ## Witnesses -/

/-- A device that accepts everything; the world is the list of clock readings to come and the list of answers to
handshakes to come (whether the key can be read). -/
def sampleEnv : Env (List Int × List Bool) where
  post _ body _ w :=
    match body with
    | .handshake => (.ok (200, .obj [("error_code", .num 0), ("result", .obj [("key", .bool (w.2.headD true))])]),
        (w.1, w.2.tail))
    | .passthrough _ => (.ok (200, .obj [("error_code", .num 0), ("result", .obj [("response", .str "x")])]), w)
  cookie _ _ := none
  now w := (w.1.headD 0, (w.1.tail, w.2))
  openKey key _ := if key = .bool true then some (List.replicate 32 5) else none
  int _ := none

/-- Every passthrough request is answered with success and a token. -/
def sampleConfig : Config where
  loginParams := .str "user"
  defaultParams := .str "default"
  dumps _ := [1, 2, 3]
  unb64 _ := none
  decode _ := none
  loads _ := some (.obj [("error_code", .num 0), ("result", .obj [("token", .str "T")])])

/-- Which requests were posted where. -/
def posts (log : List Ev) : List (What × Url) :=
  log.filterMap fun e => match e with | .post what url _ _ _ => some (what, url) | _ => none

/-- Non-vacuity: the second request uses the session; the third comes after its end and gets a new one. -/
example : posts (history Crypto.toyCipher sampleEnv sampleConfig ([0, 85199, 85200, 85201], [true, true])
      [.send [1], .send [2], .send [3]]).log =
    [(.handshake, .app), (.login, .app), (.request, .token (.str "T")), (.request, .token (.str "T")),
     (.handshake, .app), (.login, .app), (.request, .token (.str "T"))] := by decide +kernel

/-- C13 is false of the AES transport: the session has run out, the device answers the new handshake with a key that
cannot be read (an exception), and the next call sends its request with the old key, without a login. -/
theorem C13_aes_bad_key : ∃ before after body cookies outcome,
    (history Crypto.toyCipher sampleEnv sampleConfig ([0, 90000, 90001, 90002], [true, false])
      [.send [1], .send [2], .send [3]]).log = before ++ .post .request .app body cookies outcome :: after ∧
    (observe Crypto.toyCipher sampleConfig sampleEnv.int before).key = none ∧
    (observe Crypto.toyCipher sampleConfig sampleEnv.int before).token = none ∧
    body = .passthrough (Crypto.encrypt Crypto.toyCipher (List.replicate 16 5) (List.replicate 16 5) [3]) := by
  refine ⟨(history Crypto.toyCipher sampleEnv sampleConfig ([0, 90000, 90001, 90002], [true, false])
      [.send [1], .send [2], .send [3]]).log.dropLast, [], .passthrough (Crypto.encrypt Crypto.toyCipher
      (List.replicate 16 5) (List.replicate 16 5) [3]), none,
    .ok (200, .obj [("error_code", .num 0), ("result", .obj [("response", .str "x")])]), ?_, ?_, ?_, rfl⟩
  · decide +kernel
  · decide +kernel
  · decide +kernel

end Kasa.Aes
