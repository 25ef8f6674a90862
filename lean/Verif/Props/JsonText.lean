import Verif.Lemmas.JsonText
import Verif.Lemmas.JsonFuel
import Verif.Lemmas.JsonExtend
import Verif.Props.Xor
import Verif.Props.Config
/-!
# C70: what is written as JSON is read back as it was

`Proper j` (Lemmas/JsonText.lean) says that no object in `j` has a key twice, which every Python dict satisfies.
-/

namespace Kasa.JsonText

/-- Whichever of the two libraries writes a value, reading the text gives the value, whatever characters its texts have. -/
theorem C70_round_trip (lib : Lib) (j : Json) (h : Proper j) : loads (dumps lib j) = some j := loads_dumps lib j h

/-- Different values have different texts, even when different libraries write them. -/
theorem C70_injective (lib lib' : Lib) (i j : Json) (hi : Proper i) (hj : Proper j) (h : dumps lib i = dumps lib' j) : i = j := by
  have := C70_round_trip lib i hi
  rw [h, C70_round_trip lib' j hj] at this
  exact (Option.some.inj this).symm

/-- A request written as JSON, sent with the legacy encryption and received in any pieces, is read by the device as it was
made. -/
theorem C70_legacy_wire (lib : Lib) (j : Json) (h : Proper j) (hlen : (utf8 (dumps lib j)).length < 2 ^ 32) :
    ∃ c, Xor.encrypt (utf8 (dumps lib j)) = some c ∧
      ∀ segments : List Bytes, segments.flatten = c →
        ∃ m r, Xor.readMessage ⟨[], segments⟩ = some (m, r) ∧ (fromUtf8 m).bind loads = some j := by
  refine ⟨_, Xor.C01_encrypt_eq_frame _ hlen, fun segments hs => ?_⟩
  obtain ⟨r, hr, -⟩ := Xor.C02_read_one (utf8 (dumps lib j)) [] hlen ⟨[], segments⟩ (by simpa using hs)
  refine ⟨_, r, hr, ?_⟩
  rw [fromUtf8_utf8]
  exact C70_round_trip lib j h

/-! ## Connection configurations -/

theorem proper_field (k : String) (v : Option Json) (l : List (String × Json)) (hv : ∀ j, v = some j → Proper j)
    (hl : ProperKvs l) : ProperKvs (Config.field k v ++ l) := by
  cases v with
  | none => exact hl
  | some j =>
    show ProperKvs ((k, j) :: l)
    rw [ProperKvs]
    exact ⟨hv j rfl, hl⟩

theorem proper_str (o : Option String) (j : Json) (h : o.map Json.str = some j) : Proper j := by
  cases o with
  | none => cases h
  | some s => cases h; trivial

theorem proper_num (o : Option Int) (j : Json) (h : o.map Json.num = some j) : Proper j := by
  cases o with
  | none => cases h
  | some s => cases h; trivial

theorem keys_field (k : String) (v : Option Json) : (Config.field k v).map Prod.fst = if v.isSome then [k] else [] := by
  cases v <;> rfl

theorem proper_conn (c : Config.ConnParams) : Proper c.toDict := by
  unfold Config.ConnParams.toDict
  rw [Proper]
  constructor
  · unfold Dict.WF Dict.keys
    simp only [List.map_append, keys_field, Option.isSome_map, Option.isSome_some, if_true]
    generalize c.loginVersion.isSome = a
    generalize c.httpPort.isSome = b
    revert a b
    decide +kernel
  · simp only [List.append_assoc]
    refine proper_field _ _ _ (fun j h => by cases h; trivial) ?_
    refine proper_field _ _ _ (fun j h => by cases h; trivial) ?_
    refine proper_field _ _ _ (proper_num _) ?_
    refine proper_field _ _ _ (fun j h => by cases h; trivial) ?_
    rw [← List.append_nil (Config.field _ _)]
    exact proper_field _ _ _ (proper_num _) trivial

theorem proper_config (c : Config.DeviceConfig) : Proper c.toDict := by
  unfold Config.DeviceConfig.toDict
  rw [Proper]
  constructor
  · unfold Dict.WF Dict.keys
    simp only [List.map_append, keys_field, Option.isSome_map, Option.isSome_some, if_true]
    generalize c.timeout.isSome = a
    generalize c.portOverride.isSome = b
    generalize c.credentials.isSome = d
    generalize c.credentialsHash.isSome = e
    generalize c.batchSize.isSome = f
    generalize c.aesKeys.isSome = g
    revert a b d e f g
    decide +kernel
  · simp only [List.append_assoc]
    refine proper_field _ _ _ (fun j h => by cases h; trivial) ?_
    refine proper_field _ _ _ (proper_num _) ?_
    refine proper_field _ _ _ (proper_num _) ?_
    refine proper_field _ _ _ (fun j h => ?_) ?_
    · cases hc : c.credentials with
      | none => rw [hc] at h; cases h
      | some x =>
        rw [hc] at h
        cases h
        unfold Config.Credentials.toDict
        rw [Proper]
        refine ⟨?_, ?_⟩
        · simp [Dict.WF, Dict.keys]
        · simp [ProperKvs, Proper]
    refine proper_field _ _ _ (proper_str _) ?_
    refine proper_field _ _ _ (proper_num _) ?_
    refine proper_field _ _ _ (fun j h => by cases h; exact proper_conn _) ?_
    rw [← List.append_nil (Config.field _ _)]
    refine proper_field _ _ _ (fun j h => ?_) trivial
    cases hc : c.aesKeys with
    | none => rw [hc] at h; cases h
    | some x =>
      rw [hc] at h
      cases h
      unfold Config.KeyPair.toDict
      rw [Proper]
      refine ⟨?_, ?_⟩
      · simp [Dict.WF, Dict.keys]
      · simp [ProperKvs, Proper]

/-- A connection configuration saved as a JSON text and loaded again is the same, but for the HTTP client, and for a timeout
that was switched off and comes back as five seconds (`C19_no_timeout`). -/
theorem C70_config (lib : Lib) (c : Config.DeviceConfig) :
    (loads (dumps lib c.toDict)).map Config.DeviceConfig.fromDict =
      some (.ok { c with timeout := some (c.timeout.getD 5), httpClient := none }) := by
  rw [C70_round_trip lib _ (proper_config c)]
  exact congrArg some (Config.fromDict_toDict c)

/-! ## What is refused -/

/-- A text that was cut off is never taken for a whole one: no proper beginning of the text of an object or a list is read. -/
theorem C70_truncated (lib : Lib) (j : Json) (h : Proper j) (hj : (∃ l, j = .arr l) ∨ ∃ l, j = .obj l) (p q : List Char)
    (hp : p ++ q = (dumps lib j).toList) (hq : q ≠ []) : loads (String.ofList p) = none := by
  have hd : (dumps lib j).toList = dump lib j := String.toList_ofList
  rw [hd] at hp
  cases hl : loads (String.ofList p) with
  | none => rfl
  | some v =>
    exfalso
    unfold loads at hl
    rw [String.toList_ofList] at hl
    cases hv : value (2 * p.length + 2) p with
    | none => rw [hv] at hl; cases hl
    | some x =>
      obtain ⟨v', rest⟩ := x
      have hfull := value_dump lib j (2 * (dump lib j).length + 2) [] h (fun c r e => nomatch e) (by omega)
      rw [List.append_nil] at hfull
      -- what is read begins as the whole does, so it is no number
      have hclosed : Closed v' := by
        intro n hn
        subst hn
        cases p with
        | nil => rw [value] at hv; cases hv
        | cons c p' =>
          have hc : c = '[' ∨ c = '{' := by
            rcases hj with ⟨l, rfl⟩ | ⟨l, rfl⟩
            · rw [dump] at hp
              exact .inl (List.cons.inj hp).1
            · rw [dump] at hp
              exact .inr (List.cons.inj hp).1
          rw [value] at hv
          rcases hc with rfl | rfl
          · rw [skip_cons _ (by decide)] at hv
            simp only at hv
            rw [if_neg (by decide), if_pos trivial] at hv
            split at hv
            · cases hv
            · cases hi : items (2 * ('[' :: p').length + 1) p' with
              | none => rw [hi] at hv; cases hv
              | some y => rw [hi] at hv; cases hv
          · rw [skip_cons _ (by decide)] at hv
            simp only at hv
            rw [if_neg (by decide), if_neg (by decide), if_pos trivial] at hv
            split at hv
            · cases hv
            · cases hi : members (2 * ('{' :: p').length + 1) p' with
              | none => rw [hi] at hv; cases hv
              | some y => rw [hi] at hv; cases hv
      have hmore : value (2 * (dump lib j).length + 2) p = some (v', rest) := by
        rw [enough_fuel p _ (by rw [← hp, List.length_append]; omega)]
        exact hv
      have hext := (extend q _).1 p _ hmore (.inr hclosed)
      rw [hp, hfull] at hext
      have := congrArg Prod.snd (Option.some.inj hext)
      simp only at this
      exact hq (List.append_eq_nil_iff.1 this.symm).2

/-- A text with something after a value is refused, unless it is white space. -/
theorem C70_trailing (lib : Lib) (j : Json) (h : Proper j) (q : List Char) (he : Ends q) :
    loads (String.ofList (dump lib j ++ q)) = if skip q = [] then some j else none := by
  unfold loads
  rw [String.toList_ofList, value_dump lib j _ q h he (by rw [List.length_append]; omega)]

/-- The reader has no bound: a text is read in the same way with any larger number of steps. -/
theorem C70_no_bound (text : String) (fuel : Nat) (h : 2 * text.toList.length + 2 ≤ fuel) :
    loads text = match value fuel text.toList with
      | some (v, rest) => if skip rest = [] then some v else none
      | none => none := by
  rw [enough_fuel _ fuel h]
  rfl

/-! ## What is written -/

theorem hexChar_ascii : ∀ n, n < 16 → 32 ≤ (hexChar n).toNat ∧ (hexChar n).toNat < 127 := by decide +kernel

theorem hex4_ascii (n : Nat) (c : Char) (h : c ∈ unicodeEscape n) : 32 ≤ c.toNat ∧ c.toNat < 127 := by
  simp only [unicodeEscape, hex4, List.mem_cons, List.not_mem_nil, or_false] at h
  rcases h with rfl | rfl | rfl | rfl | rfl | rfl
  · decide
  · decide
  all_goals exact hexChar_ascii _ (Nat.mod_lt _ (by decide))

theorem escape_chars (lib : Lib) (c d : Char) (h : d ∈ escape lib c) :
    32 ≤ d.toNat ∧ (lib = .python → d.toNat < 127) := by
  unfold escape at h
  split at h
  · simp at h; rcases h with rfl | rfl <;> exact ⟨by decide, fun _ => by decide⟩
  split at h
  · simp at h; subst h; exact ⟨by decide, fun _ => by decide⟩
  split at h
  · simp at h; rcases h with rfl | rfl <;> exact ⟨by decide, fun _ => by decide⟩
  split at h
  · simp at h; rcases h with rfl | rfl <;> exact ⟨by decide, fun _ => by decide⟩
  split at h
  · simp at h; rcases h with rfl | rfl <;> exact ⟨by decide, fun _ => by decide⟩
  split at h
  · simp at h; rcases h with rfl | rfl <;> exact ⟨by decide, fun _ => by decide⟩
  split at h
  · simp at h; rcases h with rfl | rfl <;> exact ⟨by decide, fun _ => by decide⟩
  split at h
  · exact ⟨(hex4_ascii _ d h).1, fun _ => (hex4_ascii _ d h).2⟩
  rename_i h32
  split at h
  · split at h
    · exact ⟨(hex4_ascii _ d h).1, fun _ => (hex4_ascii _ d h).2⟩
    · rcases List.mem_append.1 h with h | h <;> exact ⟨(hex4_ascii _ d h).1, fun _ => (hex4_ascii _ d h).2⟩
  · rename_i hp
    simp at h
    subst h
    exact ⟨by omega, fun hl => Nat.lt_of_not_le fun hle => hp ⟨hl, hle⟩⟩

/-- Is `c` a character that may be in a text written by `lib`? -/
def Plain (lib : Lib) (c : Char) : Prop := 32 ≤ c.toNat ∧ (lib = .python → c.toNat < 127)

instance (lib : Lib) (c : Char) : Decidable (Plain lib c) := inferInstanceAs (Decidable (_ ∧ _))

theorem quote_chars (lib : Lib) (s : String) : ∀ c ∈ quote lib s, Plain lib c := by
  intro c hc
  unfold quote at hc
  rcases List.mem_cons.1 hc with rfl | hc
  · cases lib <;> decide
  rcases List.mem_append.1 hc with hc | hc
  · obtain ⟨a, -, ha⟩ := List.mem_flatMap.1 hc
    exact escape_chars lib a c ha
  · simp at hc
    subst hc
    cases lib <;> decide

mutual
theorem dump_chars (lib : Lib) : ∀ j, ∀ c ∈ dump lib j, Plain lib c
  | .null => by rw [dump]; cases lib <;> decide
  | .bool true => by rw [dump]; cases lib <;> decide
  | .bool false => by rw [dump]; cases lib <;> decide
  | .num n => by
    rw [dump, int_repr]
    have hd : ∀ m (c : Char), c ∈ Nat.toDigits 10 m → Plain lib c := by
      intro m c hc
      have := isDigit_digits hc
      simp only [Char.isDigit, Bool.and_eq_true, decide_eq_true_eq] at this
      have h1 : 48 ≤ c.toNat := this.1
      have h2 : c.toNat ≤ 57 := this.2
      exact ⟨by omega, fun _ => by omega⟩
    cases n with
    | ofNat m => exact hd m
    | negSucc m =>
      intro c hc
      rcases List.mem_cons.1 hc with rfl | hc
      · cases lib <;> decide
      · exact hd _ c hc
  | .str s => by rw [dump]; exact quote_chars lib s
  | .arr l => by
    rw [dump]
    intro c hc
    rcases List.mem_cons.1 hc with rfl | hc
    · cases lib <;> decide
    rcases List.mem_append.1 hc with hc | hc
    · exact dumpItems_chars lib l c hc
    · simp at hc; subst hc; cases lib <;> decide
  | .obj l => by
    rw [dump]
    intro c hc
    rcases List.mem_cons.1 hc with rfl | hc
    · cases lib <;> decide
    rcases List.mem_append.1 hc with hc | hc
    · exact dumpMembers_chars lib l c hc
    · simp at hc; subst hc; cases lib <;> decide

theorem dumpItems_chars (lib : Lib) : ∀ l, ∀ c ∈ dumpItems lib l, Plain lib c
  | [] => by rw [dumpItems]; exact fun c hc => nomatch hc
  | [x] => by rw [dumpItems]; exact dump_chars lib x
  | x :: y :: l => by
    rw [dumpItems]
    intro c hc
    rcases List.mem_append.1 hc with hc | hc
    · exact dump_chars lib x c hc
    rcases List.mem_cons.1 hc with rfl | hc
    · cases lib <;> decide
    · exact dumpItems_chars lib (y :: l) c hc

theorem dumpMembers_chars (lib : Lib) : ∀ l, ∀ c ∈ dumpMembers lib l, Plain lib c
  | [] => by rw [dumpMembers]; exact fun c hc => nomatch hc
  | [(k, v)] => by
    rw [dumpMembers]
    intro c hc
    rcases List.mem_append.1 hc with hc | hc
    · exact quote_chars lib k c hc
    rcases List.mem_cons.1 hc with rfl | hc
    · cases lib <;> decide
    · exact dump_chars lib v c hc
  | (k, v) :: y :: l => by
    rw [dumpMembers]
    intro c hc
    rcases List.mem_append.1 hc with hc | hc
    · exact quote_chars lib k c hc
    rcases List.mem_cons.1 hc with rfl | hc
    · cases lib <;> decide
    rcases List.mem_append.1 hc with hc | hc
    · exact dump_chars lib v c hc
    rcases List.mem_cons.1 hc with rfl | hc
    · cases lib <;> decide
    · exact dumpMembers_chars lib (y :: l) c hc
end

/-- A text is one line without control characters; Python's library writes only printable ASCII. -/
theorem C70_one_line (lib : Lib) (j : Json) :
    ∀ c ∈ (dumps lib j).toList, 32 ≤ c.toNat ∧ (lib = .python → c.toNat < 127) := by
  have hd : (dumps lib j).toList = dump lib j := String.toList_ofList
  rw [hd]
  exact dump_chars lib j

/-! ## Escapes -/

/-- The hexadecimal digits, in both cases. -/
def hexDigits : List (Char × Nat) :=
  [('0', 0), ('1', 1), ('2', 2), ('3', 3), ('4', 4), ('5', 5), ('6', 6), ('7', 7), ('8', 8), ('9', 9),
   ('a', 10), ('b', 11), ('c', 12), ('d', 13), ('e', 14), ('f', 15),
   ('A', 10), ('B', 11), ('C', 12), ('D', 13), ('E', 14), ('F', 15)]

theorem hexVal_digit (c : Char) (n : Nat) (h : (c, n) ∈ hexDigits) : hexVal c = some n := by
  have : ∀ p ∈ hexDigits, hexVal p.1 = some p.2 := by decide +kernel
  exact this _ h

theorem hexVal_other (c : Char) (n : Nat) (h : hexVal c = some n) : (c, n) ∈ hexDigits := by
  have table : ∀ m < 128, (hexVal (Char.ofNat m)).all (fun n => decide ((Char.ofNat m, n) ∈ hexDigits)) = true := by decide +kernel
  have hlt : c.toNat < 128 := by
    unfold hexVal at h
    split at h
    · omega
    · split at h
      · omega
      · split at h
        · omega
        · cases h
  have := table c.toNat hlt
  rw [Char.ofNat_toNat, h] at this
  simpa using this

/-- A text may have any character of the basic plane written as an escape with four hexadecimal digits of either case. -/
theorem C70_escape (a b c d : Char) (w x y z : Nat) (ha : (a, w) ∈ hexDigits) (hb : (b, x) ∈ hexDigits) (hc : (c, y) ∈ hexDigits) (hd : (d, z) ∈ hexDigits)
    (hs : ¬ (0xd800 ≤ 4096 * w + 256 * x + 16 * y + z ∧ 4096 * w + 256 * x + 16 * y + z < 0xe000)) :
    loads (String.ofList ['"', '\\', 'u', a, b, c, d, '"']) = some (.str (String.ofList [Char.ofNat (4096 * w + 256 * x + 16 * y + z)])) := by
  have h1 : codes .text ['\\', 'u', a, b, c, d, '"'] = some ([4096 * w + 256 * x + 16 * y + z], []) := by
    simp only [codes, hexVal_digit a w ha, hexVal_digit b x hb, hexVal_digit c y hc, hexVal_digit d z hd, if_true]
    simp [push]
    omega
  have h2 : string ['\\', 'u', a, b, c, d, '"'] = some (String.ofList [Char.ofNat (4096 * w + 256 * x + 16 * y + z)], []) := by
    simp only [string, h1, bind, Option.bind, join]
    rw [if_neg (by omega), if_neg (by omega)]
    rfl
  unfold loads
  rw [String.toList_ofList]
  simp only [List.length_cons, List.length_nil, value, skip_cons _ (show isSpace '"' = false by decide), if_true, h2, Option.map]
  rfl

/-- An escape with anything else in it is no JSON. -/
theorem C70_bad_escape (a b c d : Char) (h : ∃ e ∈ [a, b, c, d], ∀ n, (e, n) ∉ hexDigits) :
    loads (String.ofList ['"', '\\', 'u', a, b, c, d, '"']) = none := by
  have hv : ∀ e, (∀ n, (e, n) ∉ hexDigits) → hexVal e = none := by
    intro e he
    cases hx : hexVal e with
    | none => rfl
    | some n => exact absurd (hexVal_other e n hx) (he n)
  have h1 : codes .text ['\\', 'u', a, b, c, d, '"'] = none := by
    obtain ⟨e, hm, he⟩ := h
    have he := hv e he
    simp only [List.mem_cons, List.not_mem_nil, or_false] at hm
    simp only [codes, if_true]
    have hm : hexVal a = none ∨ hexVal b = none ∨ hexVal c = none ∨ hexVal d = none := by
      rcases hm with e | e | e | e <;> rw [e] at he <;> simp [he]
    rcases hm with he | he | he | he <;>
      cases ha : hexVal a <;> cases hb : hexVal b <;> cases hc : hexVal c <;> cases hd : hexVal d <;> simp_all
  have h2 : string ['\\', 'u', a, b, c, d, '"'] = none := by
    simp only [string, h1, bind, Option.bind]
  unfold loads
  rw [String.toList_ofList]
  simp only [List.length_cons, List.length_nil, value, skip_cons _ (show isSpace '"' = false by decide), if_true, h2, Option.map]

example : loads "\"\\u00fC\"" = some (.str "ü") := C70_escape '0' '0' 'f' 'C' 0 0 15 12 (by decide) (by decide) (by decide) (by decide) (by decide)
example : loads "\"\\u00gC\"" = none := C70_bad_escape '0' '0' 'g' 'C' ⟨'g', by decide, by simp [hexDigits]⟩

/-! ## Examples -/

/-- A name with a quote, a line feed, a backslash, an umlaut and an emoji, in a nested request. -/
def request : Json :=
  .obj [("system", .obj [("set_dev_alias", .obj [("alias", .str "a\"}, \n\\ ü 😀")])]), ("ids", .arr [.num (-12), .num 0, .null])]

theorem request_proper : Proper request := by
  simp [request, Proper, ProperKvs, ProperList, Dict.WF, Dict.keys]

example : dumps .python request =
    "{\"system\":{\"set_dev_alias\":{\"alias\":\"a\\\"}, \\n\\\\ \\u00fc \\ud83d\\ude00\"}},\"ids\":[-12,0,null]}" := by
  decide +kernel

example : dumps .orjson request =
    "{\"system\":{\"set_dev_alias\":{\"alias\":\"a\\\"}, \\n\\\\ ü 😀\"}},\"ids\":[-12,0,null]}" := by
  decide +kernel

example : loads (dumps .python request) = some request := C70_round_trip .python request request_proper

/-- The reader takes other layouts, escapes and repeated keys. -/
example : loads " {\"a\" : [ 1 , -0 ] ,\n \"b\":\"\\u0041\\/\", \"a\":true } " =
    some (.obj [("a", .bool true), ("b", .str "A/")]) := by decide +kernel

/-- And it refuses what is no JSON. -/
example : ["{\"a\":1,}", "[1 2]", "\"\\x\"", "01", "{a:1}", "", "\"\n\"", "[1]]", "tru", "\"\\ud83d\""].map loads =
    List.replicate 10 none := by decide +kernel

end Kasa.JsonText
