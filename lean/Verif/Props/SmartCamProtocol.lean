import Verif.Lemmas.SmartProtocol
import Verif.Model.SmartCamProtocol
/-!
# C47: camera requests and answers are matched; C06 for cameras
-/

namespace Kasa.SmartCamSpec

/-- A word of a method name: lower case letter first, no upper case letter in the rest. -/
def Word (w : List Char) : Prop := ∃ c cs, w = c :: cs ∧ c.isLower = true ∧ ∀ x ∈ cs, x.isUpper = false

/-- The word with a capital first letter. -/
def capital : List Char → List Char
  | [] => []
  | c :: cs => c.toUpper :: cs

/-- `"SomeThing"` for the words "some" and "thing". -/
def pascal (ws : List (List Char)) : List Char := ws.flatMap capital

/-- `"some_thing"` for the words "some" and "thing". -/
def snake : List (List Char) → List Char
  | [] => []
  | [w] => w
  | w :: ws => w ++ '_' :: snake ws

end Kasa.SmartCamSpec

namespace Kasa.SmartCam
open PyM Smart SmartSpec SmartCamSpec

/-! ## Names -/

theorem lower_cases (c : Char) (h : c.isLower = true) :
    c.toUpper.isUpper = true ∧ c.toUpper.toLower = c ∧ c.isUpper = false ∧ c ≠ '_' := by
  have hall : ∀ n : Fin 26, (Char.ofNat (97 + n.val)).toUpper.isUpper = true ∧
      (Char.ofNat (97 + n.val)).toUpper.toLower = Char.ofNat (97 + n.val) ∧
      (Char.ofNat (97 + n.val)).isUpper = false ∧ Char.ofNat (97 + n.val) ≠ '_' := by decide +kernel
  have hc : ∃ n : Fin 26, c = Char.ofNat (97 + n.val) := by
    simp only [Char.isLower, Bool.and_eq_true, decide_eq_true_eq, ge_iff_le] at h
    have h1 : 97 ≤ c.toNat := h.1
    have h2 : c.toNat ≤ 122 := h.2
    refine ⟨⟨c.toNat - 97, by omega⟩, ?_⟩
    have : 97 + (c.toNat - 97) = c.toNat := by omega
    simp only [this, Char.ofNat_toNat]
  obtain ⟨n, rfl⟩ := hc
  exact hall n

/-- The rewriting of one character. -/
def snakeChar (i : Char) : List Char := if i.isUpper then ['_', i.toLower] else [i]

theorem makeSnakeName_eq (name : List Char) : makeSnakeName name = lstripUnderscore (name.flatMap snakeChar) := rfl

theorem snakeChar_rest (cs : List Char) (h : ∀ x ∈ cs, x.isUpper = false) : cs.flatMap snakeChar = cs := by
  induction cs with
  | nil => rfl
  | cons c cs ih =>
    rw [List.flatMap_cons, ih fun x hx => h x (List.mem_cons_of_mem _ hx)]
    simp [snakeChar, h c (List.mem_cons_self ..)]

theorem snakeChar_pascal (ws : List (List Char)) (h : ∀ w ∈ ws, Word w) :
    (pascal ws).flatMap snakeChar = ws.flatMap fun w => '_' :: w := by
  induction ws with
  | nil => rfl
  | cons w ws ih =>
    obtain ⟨c, cs, rfl, h1, h2⟩ := h w (List.mem_cons_self ..)
    obtain ⟨u1, u2, _, _⟩ := lower_cases c h1
    have ih' := ih fun x hx => h x (List.mem_cons_of_mem _ hx)
    unfold pascal at ih' ⊢
    rw [List.flatMap_cons, List.flatMap_append, ih', List.flatMap_cons]
    simp only [capital, List.flatMap_cons, snakeChar_rest cs h2]
    simp [snakeChar, u1, u2]

theorem joined (ws : List (List Char)) (hne : ws ≠ []) : (ws.flatMap fun w => '_' :: w) = '_' :: snake ws := by
  induction ws with
  | nil => exact absurd rfl hne
  | cons w ws ih =>
    cases ws with
    | nil => simp [snake]
    | cons w' ws =>
      rw [List.flatMap_cons, ih (by simp)]
      simp [snake]

theorem snakeName_prefixed (pre : List Char) (hp : ∀ x ∈ pre, x.isUpper = false) (c : Char) (cs : List Char)
    (hpre : pre = c :: cs) (hc : c ≠ '_') (ws : List (List Char)) (hne : ws ≠ []) (h : ∀ w ∈ ws, Word w) :
    makeSnakeName (pre ++ pascal ws) = pre ++ '_' :: snake ws := by
  rw [makeSnakeName_eq, List.flatMap_append, snakeChar_rest pre hp, snakeChar_pascal ws h, joined ws hne, hpre]
  simp [lstripUnderscore, hc]

/-- C47: `query("getSomeThing")`, for every sequence of words, asks the device to `get` the section `some_thing` (unless
the method is one of the few that are sent with `do`). -/
theorem C47_get_name (ws : List (List Char)) (hne : ws ≠ []) (hw : ∀ w ∈ ws, Word w)
    (hdo : String.ofList ("get".toList ++ pascal ws) ∉ getMethodsAsDo) (hm : String.ofList (snake ws) ≠ "method") :
    makeSingleRequest (String.ofList ("get".toList ++ pascal ws)) =
      ⟨"get", String.ofList ("get".toList ++ pascal ws), String.ofList (snake ws),
        .obj [("method", .str "get"), (String.ofList (snake ws), .obj [])]⟩ := by
  have hs : makeSnakeName (['g', 'e', 't'] ++ pascal ws) = ['g', 'e', 't'] ++ '_' :: snake ws :=
    snakeName_prefixed ['g', 'e', 't'] (by decide) 'g' ['e', 't'] rfl (by decide) ws hne hw
  have hshort : String.ofList ((String.ofList ("get".toList ++ pascal ws)).toList.take 3) = "get" := by
    rw [String.toList_ofList]
    show String.ofList ("get".toList) = "get"
    decide +kernel
  have hl : (String.ofList ("get".toList ++ pascal ws)).toList = ['g', 'e', 't'] ++ pascal ws := by
    rw [String.toList_ofList]; rfl
  generalize String.ofList ("get".toList ++ pascal ws) = name at hshort hdo hl ⊢
  unfold makeSingleRequest
  simp only [hdo, not_false_eq_true, and_true, hl, hs]
  simp [Dict.set, Ne.symm hm]

/-- C47: `query("setSomeThing")` likewise. -/
theorem C47_set_name (ws : List (List Char)) (hne : ws ≠ []) (hw : ∀ w ∈ ws, Word w)
    (hm : String.ofList (snake ws) ≠ "method") :
    makeSingleRequest (String.ofList ("set".toList ++ pascal ws)) =
      ⟨"set", String.ofList ("set".toList ++ pascal ws), String.ofList (snake ws),
        .obj [("method", .str "set"), (String.ofList (snake ws), .obj [])]⟩ := by
  have hs : makeSnakeName (['s', 'e', 't'] ++ pascal ws) = ['s', 'e', 't'] ++ '_' :: snake ws :=
    snakeName_prefixed ['s', 'e', 't'] (by decide) 's' ['e', 't'] rfl (by decide) ws hne hw
  have hshort : String.ofList ((String.ofList ("set".toList ++ pascal ws)).toList.take 3) = "set" := by
    rw [String.toList_ofList]
    show String.ofList ("set".toList) = "set"
    decide +kernel
  have hdo : String.ofList ("set".toList ++ pascal ws) ∉ getMethodsAsDo := by
    intro h
    have hall : ∀ x ∈ getMethodsAsDo, x.toList.head? = some 'g' := by decide +kernel
    have := hall _ h
    rw [String.toList_ofList] at this
    have h' : some 's' = some 'g' := this
    exact absurd h' (by decide)
  have hl : (String.ofList ("set".toList ++ pascal ws)).toList = ['s', 'e', 't'] ++ pascal ws := by
    rw [String.toList_ofList]; rfl
  generalize String.ofList ("set".toList ++ pascal ws) = name at hshort hdo hl ⊢
  unfold makeSingleRequest
  simp only [hdo, not_false_eq_true, and_true, hl, hs]
  simp [Dict.set, Ne.symm hm]

/-! ## Answers -/

theorem singleResponse_error {r : SingleRequest} {kvs : List (String × Json)} {c : Int} (hc : c ≠ 0)
    (h : Dict.get? kvs "error_code" = some (.num c)) :
    ∃ e, CodesSpec.expected c = .error e ∧ singleResponse r (.obj kvs) = .error e := by
  have hexp : ∃ e, CodesSpec.expected c = .error e := by
    unfold CodesSpec.expected
    rw [if_neg hc]
    by_cases h1 : CodesSpec.Retryable c
    · rw [if_pos h1]; exact ⟨_, rfl⟩
    · rw [if_neg h1]
      by_cases h2 : CodesSpec.Authentication c
      · rw [if_pos h2]; exact ⟨_, rfl⟩
      · rw [if_neg h2]; exact ⟨_, rfl⟩
  obtain ⟨e, he⟩ := hexp
  refine ⟨e, he, ?_⟩
  simp only [singleResponse, h]
  rw [Codes.C09_protocol, he]

section
variable {σ : Type} (t : Transport σ)

theorem executeRaw_apply (r : SingleRequest) (s : St σ) : executeRaw t r s =
    match t.send (.raw r.request) s.world with
    | (.ok resp, w) => (singleResponse r resp, { s with world := w, wire := s.wire ++ [.raw r.request] })
    | (.error e, w) => (.error e, { s with world := w, wire := s.wire ++ [.raw r.request] }) := by
  unfold executeRaw
  rw [bind_apply, send_apply]
  cases t.send (.raw r.request) s.world with
  | mk x w =>
    cases x with
    | ok resp => simp only; rw [lift_apply]
    | error e => rfl

/-- C47, any device: a query by name sends exactly one request, and a non-zero error code in the answer is raised. -/
theorem C47_error_raises (m : String) (s : St σ) (kvs : List (String × Json)) (w : σ) (c : Int) (hc : c ≠ 0)
    (hs : t.send (.raw (makeSingleRequest m).request) s.world = (.ok (.obj kvs), w))
    (h : Dict.get? kvs "error_code" = some (.num c)) :
    ∃ e, CodesSpec.expected c = .error e ∧ executeQuery t (.name m) s =
      (.error e, { s with world := w, wire := s.wire ++ [.raw (makeSingleRequest m).request] }) := by
  obtain ⟨e, h1, h2⟩ := singleResponse_error (r := makeSingleRequest m) hc h
  refine ⟨e, h1, ?_⟩
  show executeRaw t (makeSingleRequest m) s = _
  rw [executeRaw_apply, hs]
  simp only [h2]

/-- C47, any device: the answer of a query by name is filed under exactly the method asked for (nothing for a set
command), and it is the requested section of the device's answer, or the whole answer for a `do` command. -/
theorem C47_answer_filed (m : String) (s s' : St σ) (r : Dict String Entry)
    (h : executeQuery t (.name m) s = (.ok r, s')) :
    ∃ kvs, (t.send (.raw (makeSingleRequest m).request) s.world).1 = .ok (.obj kvs) ∧
      (∀ c, Dict.get? kvs "error_code" = some (.num c) → c = 0) ∧
      s'.wire = s.wire ++ [.raw (makeSingleRequest m).request] ∧
      (((makeSingleRequest m).methodType = "set" ∧ r = []) ∨
       ((makeSingleRequest m).methodType = "do" ∧ r = [(m, .value (.obj kvs))]) ∨
       ((makeSingleRequest m).methodType = "get" ∧ ∃ v, Dict.get? kvs (makeSingleRequest m).paramName = some v ∧
          r = [(m, .value (.obj [((makeSingleRequest m).paramName, v)]))])) := by
  have h' : executeRaw t (makeSingleRequest m) s = (.ok r, s') := h
  have hname : (makeSingleRequest m).methodName = m := by
    unfold makeSingleRequest; simp only; split <;> rfl
  have htype : (makeSingleRequest m).methodType = "get" ∨ (makeSingleRequest m).methodType = "set" ∨
      (makeSingleRequest m).methodType = "do" := by
    unfold makeSingleRequest
    simp only
    split
    · rename_i hx
      rcases hx.1 with h | h
      · exact Or.inl h
      · exact Or.inr (Or.inl h)
    · exact Or.inr (Or.inr rfl)
  rw [executeRaw_apply] at h'
  cases hs : t.send (.raw (makeSingleRequest m).request) s.world with
  | mk x w =>
    rw [hs] at h'
    cases x with
    | error e => simp at h'
    | ok resp =>
      simp only [Prod.mk.injEq] at h'
      obtain ⟨h1, rfl⟩ := h'
      obtain ⟨kvs, rfl⟩ : ∃ kvs, resp = .obj kvs := by
        cases resp <;> simp [singleResponse] at h1 ⊢
      refine ⟨kvs, rfl, ?_, rfl, ?_⟩
      · intro c hc
        by_cases h0 : c = 0
        · exact h0
        · obtain ⟨e, _, he⟩ := singleResponse_error (r := makeSingleRequest m) h0 hc
          rw [he] at h1; cases h1
      · generalize hr : makeSingleRequest m = q at h1 htype hname
        simp only [singleResponse] at h1
        split at h1
        · cases h1
        · rcases htype with ht | ht | ht
          · refine Or.inr (Or.inr ⟨ht, ?_⟩)
            simp only [ht, if_true, String.reduceEq, if_false] at h1
            split at h1
            · cases h1
            · split at h1
              · cases h1
              · split at h1
                · rename_i v hv
                  cases h1
                  exact ⟨v, hv, by rw [hname]⟩
                · cases h1
          · refine Or.inl ⟨ht, ?_⟩
            simp only [ht, String.reduceEq, if_true, if_false] at h1
            cases h1; rfl
          · refine Or.inr (Or.inl ⟨ht, ?_⟩)
            simp only [ht, String.reduceEq, if_true, if_false] at h1
            cases h1; rw [hname]

/-- C47, any device: a query that is a raw `multipleRequest` is sent as it is, once, and what is returned under it is the
`result` of the device's answer. -/
theorem C47_raw_batch (p : Json) (s s' : St σ) (r : Dict String Entry)
    (h : executeQuery t (.dict [("multipleRequest", p)]) s = (.ok r, s')) :
    s'.wire = s.wire ++ [.raw (.obj [("method", .str "multipleRequest"), ("params", p)])] ∧
      ∃ kvs v, (t.send (.raw (.obj [("method", .str "multipleRequest"), ("params", p)])) s.world).1 = .ok (.obj kvs) ∧
        (∀ c, Dict.get? kvs "error_code" = some (.num c) → c = 0) ∧
        Dict.get? kvs "result" = some v ∧ r = [("multipleRequest", .value v)] := by
  have h' : executeRaw t ⟨"multi", "multipleRequest", "", .obj [("method", .str "multipleRequest"), ("params", p)]⟩ s =
      (.ok r, s') := by
    simpa [executeQuery, rawMethods, getSingleRequest, lift, bind_apply] using h
  rw [executeRaw_apply] at h'
  simp only at h'
  cases hs : t.send (.raw (.obj [("method", .str "multipleRequest"), ("params", p)])) s.world with
  | mk x w =>
    rw [hs] at h'
    cases x with
    | error e => simp at h'
    | ok resp =>
      simp only [Prod.mk.injEq] at h'
      obtain ⟨h1, rfl⟩ := h'
      obtain ⟨kvs, rfl⟩ : ∃ kvs, resp = .obj kvs := by
        cases resp <;> simp [singleResponse] at h1 ⊢
      have hcode : ∀ c, Dict.get? kvs "error_code" = some (.num c) → c = 0 := by
        intro c hc
        by_cases h0 : c = 0
        · exact h0
        · obtain ⟨e, _, he⟩ := singleResponse_error
            (r := ⟨"multi", "multipleRequest", "", .obj [("method", .str "multipleRequest"), ("params", p)]⟩) h0 hc
          rw [he] at h1; cases h1
      refine ⟨rfl, kvs, ?_⟩
      simp only [singleResponse, String.reduceEq, if_true, if_false] at h1
      split at h1
      · cases h1
      · split at h1
        · rename_i v hv
          cases h1
          exact ⟨v, rfl, hcode, hv, rfl⟩
        · cases h1

/-- C47, any device: a raw `get`, `set` or `do` for one section is sent as it is, once; a `get` returns that section of
the answer, a `do` the whole answer and a `set` nothing. -/
theorem C47_raw_section (m sec : String) (p : Json) (s s' : St σ) (r : Dict String Entry)
    (hm : m = "get" ∨ m = "set" ∨ m = "do") (hsec : sec ≠ "method")
    (h : executeQuery t (.dict [(m, .obj [(sec, p)])]) s = (.ok r, s')) :
    s'.wire = s.wire ++ [.raw (.obj [("method", .str m), (sec, p)])] ∧
      ∃ kvs, (t.send (.raw (.obj [("method", .str m), (sec, p)])) s.world).1 = .ok (.obj kvs) ∧
        (∀ c, Dict.get? kvs "error_code" = some (.num c) → c = 0) ∧
        ((m = "set" ∧ r = []) ∨ (m = "do" ∧ r = [("do", .value (.obj kvs))]) ∨
         (m = "get" ∧ ∃ v, Dict.get? kvs sec = some v ∧ r = [("get", .value (.obj [(sec, v)]))])) := by
  have hreq : getSingleRequest m (.obj [(sec, p)]) = .ok ⟨m, m, sec, .obj [("method", .str m), (sec, p)]⟩ := by
    have hne : m ≠ "multipleRequest" := by rcases hm with rfl | rfl | rfl <;> decide
    simp [getSingleRequest, hne, Dict.set, Ne.symm hsec]
  have hraw : m ∈ rawMethods := by rcases hm with rfl | rfl | rfl <;> decide
  have h' : executeRaw t ⟨m, m, sec, .obj [("method", .str m), (sec, p)]⟩ s = (.ok r, s') := by
    simp only [executeQuery, hraw, if_true, hreq, lift, bind_apply] at h
    exact h
  rw [executeRaw_apply] at h'
  simp only at h'
  cases hs : t.send (.raw (.obj [("method", .str m), (sec, p)])) s.world with
  | mk x w =>
    rw [hs] at h'
    cases x with
    | error e => simp at h'
    | ok resp =>
      simp only [Prod.mk.injEq] at h'
      obtain ⟨h1, rfl⟩ := h'
      obtain ⟨kvs, rfl⟩ : ∃ kvs, resp = .obj kvs := by
        cases resp <;> simp [singleResponse] at h1 ⊢
      have hcode : ∀ c, Dict.get? kvs "error_code" = some (.num c) → c = 0 := by
        intro c hc
        by_cases h0 : c = 0
        · exact h0
        · obtain ⟨e, _, he⟩ := singleResponse_error (r := ⟨m, m, sec, .obj [("method", .str m), (sec, p)]⟩) h0 hc
          rw [he] at h1; cases h1
      refine ⟨rfl, kvs, rfl, hcode, ?_⟩
      rcases hm with rfl | rfl | rfl
      · refine Or.inr (Or.inr ⟨rfl, ?_⟩)
        simp only [singleResponse, String.reduceEq, if_true, if_false] at h1
        split at h1
        · cases h1
        · split at h1
          · cases h1
          · split at h1
            · cases h1
            · split at h1
              · rename_i v hv
                cases h1
                exact ⟨v, hv, rfl⟩
              · cases h1
      · refine Or.inl ⟨rfl, ?_⟩
        simp only [singleResponse, String.reduceEq, if_true, if_false] at h1
        split at h1
        · cases h1
        · cases h1; rfl
      · refine Or.inr (Or.inl ⟨rfl, ?_⟩)
        simp only [singleResponse, String.reduceEq, if_true, if_false] at h1
        split at h1
        · cases h1
        · cases h1; rfl

/-- C47: a `get` whose answer is an empty section is an error, not empty data. -/
theorem C47_empty_section_raises (m : String) (s : St σ) (k : String) (rest : List (String × Json)) (w : σ)
    (hget : (makeSingleRequest m).methodType = "get")
    (hs : t.send (.raw (makeSingleRequest m).request) s.world = (.ok (.obj ((k, .obj []) :: rest)), w))
    (hcode : Dict.get? ((k, .obj []) :: rest) "error_code" = none) :
    (executeQuery t (.name m) s).1 = .error (.device none) := by
  show (executeRaw t (makeSingleRequest m) s).1 = _
  rw [executeRaw_apply, hs]
  simp [singleResponse, hcode, hget]

/-- C06 for cameras, any device: when batching is enabled and the query returns, every requested method has an entry
(one method or several; the methods that are sent as they are excepted). -/
theorem C06_cam_every_method (requests : Dict String Json) (s s' : St σ) (r : Dict String Entry)
    (hb : s.batchSize ≠ 1) (hraw : ∀ m ∈ requests.keys, m ∉ rawMethods)
    (h : executeQuery t (.dict requests) s = (.ok r, s')) :
    ∀ m ∈ requests.keys, m ∈ r.keys := by
  have hmulti : requests ≠ [] → executeMultiple t (some (fetchPage t)) requests s = (.ok r, s') := by
    match requests, h, hraw with
    | [], _, _ => intro h; exact absurd rfl h
    | [(m, p)], h, hraw =>
      intro _
      have hm : m ∉ rawMethods := hraw m (by simp)
      simpa only [executeQuery, hm, if_false] using h
    | _ :: _ :: _, h, _ => intro _; exact h
  intro m hm
  have hne : requests ≠ [] := by rintro rfl; simp at hm
  have h1 := hmulti hne
  rw [executeMultiple_apply t _ requests s hb] at h1
  obtain ⟨acc, s1, _, h2⟩ := bind_eq_ok h1
  exact (queryMissing_fold_keys t _ requests acc r s1 s' h2 m).mpr (Or.inr hm)

/-! ### One method: errors raise -/

theorem checkResponse_true_none {resp : Json} {x : Option Int} (h : checkResponse true resp = .ok x) : x = none := by
  unfold checkResponse at h
  split at h
  · simp only [if_true] at h
    split at h
    · cases h
    · cases h; rfl
  · cases h

/-- The result so far holds no error codes. -/
def AllValues (acc : Dict String Entry) : Prop := ∀ m e, Dict.get? acc m = some e → ∃ v, e = .value v

theorem AllValues.set {acc : Dict String Entry} (h : AllValues acc) (m : String) (v : Json) :
    AllValues (acc.set m (.value v)) := by
  intro m' e he
  rw [Dict.get?_set] at he
  split at he
  · cases he; exact ⟨v, rfl⟩
  · exact h m' e he

theorem completeEntry_values (pager : Pager σ) (m : String) (p v : Json) (e : Entry) (s s' : St σ)
    (h : completeEntry pager m p (.value v) s = (.ok e, s')) : ∃ v', e = .value v' := by
  cases pager with
  | none => rw [completeEntry_none] at h; cases h; exact ⟨v, rfl⟩
  | some fetch =>
    rw [completeEntry_value] at h
    split at h
    · obtain ⟨v', s1, _, h2⟩ := bind_eq_ok h
      cases h2; exact ⟨v', rfl⟩
    · cases h; exact ⟨v, rfl⟩

theorem foldM_inv {ι α : Type} {S : Type} {body : α → ι → PyM S α} (I : α → Prop)
    (hstep : ∀ acc x s r s', I acc → body acc x s = (.ok r, s') → I r) (l : List ι) (acc r : α) (s s' : S)
    (h0 : I acc) (h : foldM body acc l s = (.ok r, s')) : I r := by
  induction l generalizing acc s with
  | nil => cases h; exact h0
  | cons x l ih =>
    rw [foldM_cons] at h
    obtain ⟨a, s1, h1, h2⟩ := bind_eq_ok h
    exact ih a s1 (hstep _ _ _ _ _ h0 h1) h2

theorem processResponse_values (pager : Pager σ) (requests : Dict String Json) (acc r : Dict String Entry) (resp : Json)
    (s s' : St σ) (hacc : AllValues acc) (h : processResponse pager requests true acc resp s = (.ok r, s')) :
    AllValues r := by
  unfold processResponse at h
  cases resp with
  | obj kvs =>
    simp only at h
    cases hm : Dict.get? kvs "method" with
    | none => simp only [hm] at h; cases h; exact hacc
    | some v =>
      simp only [hm] at h
      cases v with
      | str method =>
        simp only at h
        split at h
        · cases h; exact hacc
        · obtain ⟨rep, s1, h1, h2⟩ := bind_eq_ok h
          obtain ⟨entry, s2, h3, h4⟩ := bind_eq_ok h2
          rw [lift_apply] at h1
          simp only [Prod.mk.injEq] at h1
          rw [checkResponse_true_none h1.1] at h3
          obtain ⟨v', rfl⟩ := completeEntry_values _ _ _ _ _ _ _ h3
          cases h4
          exact hacc.set _ _
      | _ =>
        simp only at h
        split at h
        · simp at h
        · cases h; exact hacc
  | _ => simp at h

/-- C47 / C06 for cameras, any device: a query for one method that returns holds no error code: errors are raised. -/
theorem C47_one_method_no_error_entry (m : String) (p : Json) (hraw : m ∉ rawMethods) (s s' : St σ)
    (r : Dict String Entry) (h : executeQuery t (.dict [(m, p)]) s = (.ok r, s')) :
    ∀ k e, Dict.get? r k = some e → ∃ v, e = .value v := by
  have h1 : executeMultiple t (some (fetchPage t)) [(m, p)] s = (.ok r, s') := by
    simpa only [executeQuery, hraw, if_false] using h
  have hnil : AllValues [] := by intro k e hk; simp at hk
  have hlen : ([(m, p)].length == 1) = true := rfl
  by_cases hb : s.batchSize = 1
  · rw [executeMultiple_one t _ _ s hb, hlen] at h1
    refine foldM_inv AllValues ?_ _ _ _ _ _ hnil h1
    intro acc q s1 r1 s2 hacc hq
    unfold queryUnbatched at hq
    obtain ⟨resp, s3, _, h3⟩ := bind_eq_ok hq
    obtain ⟨rep, s4, h4, h5⟩ := bind_eq_ok h3
    obtain ⟨e, s5, h6, h7⟩ := bind_eq_ok h5
    rw [lift_apply] at h4 h6
    simp only [Prod.mk.injEq] at h4 h6
    rw [checkResponse_true_none h4.1] at h6
    cases h7
    have : ∃ v, e = .value v := by
      have := h6.1
      unfold resultIndex at this
      simp only at this
      split at this
      · cases this; exact ⟨_, rfl⟩
      · cases this
    obtain ⟨v, rfl⟩ := this
    exact hacc.set _ _
  · rw [executeMultiple_apply t _ _ s hb, hlen] at h1
    obtain ⟨acc, s1, h2, h3⟩ := bind_eq_ok h1
    have hacc : AllValues acc := by
      refine foldM_inv AllValues ?_ _ _ _ _ _ hnil h2
      intro acc i s1 r1 s2 hacc hq
      unfold sendBatch at hq
      obtain ⟨resp, s3, _, h3⟩ := bind_eq_ok hq
      obtain ⟨_, s4, _, h5⟩ := bind_eq_ok h3
      obtain ⟨items, s5, _, h7⟩ := bind_eq_ok h5
      exact foldM_inv AllValues (fun acc x s r s' => processResponse_values _ _ acc r x s s') _ _ _ _ _ hacc h7
    refine foldM_inv AllValues ?_ _ _ _ _ _ hacc h3
    intro acc q s1 r1 s2 hacc hq
    unfold queryMissing at hq
    split at hq
    · cases hq; exact hacc
    · obtain ⟨resp, s3, _, h3⟩ := bind_eq_ok hq
      obtain ⟨rep, s4, h4, h5⟩ := bind_eq_ok h3
      rw [lift_apply] at h4
      simp only [Prod.mk.injEq] at h4
      rw [checkResponse_true_none h4.1] at h5
      cases h5
      exact hacc.set _ _

end

/-! ## Examples and witnesses -/

/-- A camera that gives a fixed answer. -/
def fixedCamera (resp : Json) : Transport Unit where
  send _ w := (.ok resp, w)
  reset w := (.ok (), w)

/-- Non-vacuity of C47: a method of three words and its answer. -/
example : (executeQuery (fixedCamera (.obj [("lens_mask_info", .obj [("enabled", .str "on")]), ("error_code", .num 0)]))
      (.name "getLensMaskInfo") ⟨5, (), []⟩).1 =
    .ok [("getLensMaskInfo", .value (.obj [("lens_mask_info", .obj [("enabled", .str "on")])]))] := by decide +kernel
example : (executeQuery (fixedCamera (.obj [("result", .obj [("responses", .arr [])]), ("error_code", .num 0)]))
    (.dict [("multipleRequest", .obj [("requests", .arr [])])]) ⟨5, (), []⟩).1.isOk = true := by decide +kernel

example : ∀ w ∈ ["lens".toList, "mask".toList, "info".toList], Word w := by
  intro w hw
  simp only [List.mem_cons, List.not_mem_nil, or_false] at hw
  rcases hw with rfl | rfl | rfl
  · exact ⟨'l', "ens".toList, by decide +kernel, by decide, by decide +kernel⟩
  · exact ⟨'m', "ask".toList, by decide +kernel, by decide, by decide +kernel⟩
  · exact ⟨'i', "nfo".toList, by decide +kernel, by decide, by decide +kernel⟩

/-- The full C47 fails: an answer to a `get` that holds nothing but a success code is a `KeyError`, not a library
exception. -/
theorem C47_success_without_section_escapes :
    ∃ (m : String) (resp : Json),
      (executeQuery (fixedCamera resp) (.name m) ⟨5, (), []⟩).1 = .error (.other "KeyError") :=
  ⟨"getLensMaskInfo", .obj [("error_code", .num 0)], by decide +kernel⟩

/-- The full C47 fails: an empty answer to a `get` (the very case the code's comment describes) is a `RuntimeError`
(a `StopIteration` inside a coroutine), not a library exception. -/
theorem C47_empty_answer_escapes :
    ∃ (m : String), (executeQuery (fixedCamera (.obj [])) (.name m) ⟨5, (), []⟩).1 = .error (.other "RuntimeError") :=
  ⟨"getLensMaskInfo", by decide +kernel⟩

end Kasa.SmartCam
