import Verif.Model.JsonText
/-!
# Reading back what was written
-/

namespace Kasa.JsonText

/-! ## Strings -/

theorem hexVal_hexChar : ∀ n, n < 16 → hexVal (hexChar n) = some n := by decide +kernel

theorem codes_hex4 (n : Nat) (h : n < 65536) (r : List Char) :
    codes (.hex 3 0) (hex4 n ++ r) = push n (codes .text r) := by
  simp only [hex4, List.cons_append, List.nil_append, codes, hexVal_hexChar _ (Nat.mod_lt _ (by decide : 0 < 16)),
    Nat.reduceEqDiff, if_false, Nat.reduceSub, if_true]
  congr 1
  omega

theorem codes_unicodeEscape (n : Nat) (h : n < 65536) (r : List Char) :
    codes .text (unicodeEscape n ++ r) = push n (codes .text r) := by
  simp only [unicodeEscape, List.cons_append, codes, if_true]
  rw [if_neg (by decide), codes_hex4 n h]

/-- The codes a character is written with. -/
def units (lib : Lib) (c : Char) : List Nat :=
  if lib = .python ∧ 65536 ≤ c.toNat then
    [0xd800 + (c.toNat - 65536) / 1024, 0xdc00 + (c.toNat - 65536) % 1024]
  else [c.toNat]

theorem char_range (c : Char) : c.toNat < 0xd800 ∨ 0xe000 ≤ c.toNat ∧ c.toNat < 0x110000 := by
  have := c.valid
  simp only [UInt32.isValidChar, Nat.isValidChar] at this
  show c.val.toNat < _ ∨ _ ≤ c.val.toNat ∧ c.val.toNat < _
  omega

theorem ofNat_toNat (c : Char) (n : Nat) (h : n = c.toNat) : Char.ofNat n = c := by
  subst h
  exact Char.ofNat_toNat c

theorem codes_short (e : Char) (n : Nat) (r : List Char) (hu : e ≠ 'u') (h : unescape e = some n) :
    codes .text ('\\' :: e :: r) = push n (codes .text r) := by
  simp only [codes, hu, if_false, h]
  rw [if_neg (by decide), if_pos trivial]

theorem toNat_ne {c d : Char} (h : c ≠ d) : c.toNat ≠ d.toNat := fun e => h (by
  have := ofNat_toNat c _ rfl
  rw [e, ofNat_toNat d _ rfl] at this
  exact this.symm)

theorem codes_escape (lib : Lib) (c : Char) (r : List Char) :
    codes .text (escape lib c ++ r) = (units lib c).foldr push (codes .text r) := by
  have hone : ∀ x : Nat, c.toNat = x → x < 65536 → (units lib c).foldr push (codes .text r) = push x (codes .text r) := by
    intro x hx hlt
    have : ¬ (lib = .python ∧ 65536 ≤ c.toNat) := fun h => absurd h.2 (by omega)
    rw [units, if_neg this, hx]
    rfl
  unfold escape
  by_cases h1 : c = '"'
  · rw [if_pos h1, hone 34 (by rw [h1]; rfl) (by decide)]
    exact codes_short '"' 34 r (by decide) rfl
  rw [if_neg h1]
  by_cases h2 : c = '\\'
  · rw [if_pos h2, hone 92 (by rw [h2]; rfl) (by decide)]
    exact codes_short '\\' 92 r (by decide) rfl
  rw [if_neg h2]
  by_cases h3 : c = '\n'
  · rw [if_pos h3, hone 10 (by rw [h3]; rfl) (by decide)]
    exact codes_short 'n' 10 r (by decide) rfl
  rw [if_neg h3]
  by_cases h4 : c = '\r'
  · rw [if_pos h4, hone 13 (by rw [h4]; rfl) (by decide)]
    exact codes_short 'r' 13 r (by decide) rfl
  rw [if_neg h4]
  by_cases h5 : c = '\t'
  · rw [if_pos h5, hone 9 (by rw [h5]; rfl) (by decide)]
    exact codes_short 't' 9 r (by decide) rfl
  rw [if_neg h5]
  by_cases h6 : c.toNat = 8
  · rw [if_pos h6, hone 8 h6 (by decide)]
    exact codes_short 'b' 8 r (by decide) rfl
  rw [if_neg h6]
  by_cases h7 : c.toNat = 12
  · rw [if_pos h7, hone 12 h7 (by decide)]
    exact codes_short 'f' 12 r (by decide) rfl
  rw [if_neg h7]
  by_cases h8 : c.toNat < 32
  · rw [if_pos h8, hone _ rfl (by omega)]
    exact codes_unicodeEscape _ (by omega) r
  rw [if_neg h8]
  by_cases h9 : lib = .python ∧ 127 ≤ c.toNat
  · rw [if_pos h9]
    by_cases h10 : c.toNat < 65536
    · rw [if_pos h10, hone _ rfl h10]
      exact codes_unicodeEscape _ h10 r
    · rw [if_neg h10]
      have hr := char_range c
      have hu : units lib c = [0xd800 + (c.toNat - 65536) / 1024, 0xdc00 + (c.toNat - 65536) % 1024] :=
        if_pos ⟨h9.1, by omega⟩
      rw [hu, List.append_assoc, codes_unicodeEscape _ (by omega), codes_unicodeEscape _ (by omega)]
      rfl
  · rw [if_neg h9]
    have hu : units lib c = [c.toNat] := if_neg fun h => h9 ⟨h.1, by omega⟩
    rw [hu]
    simp only [List.cons_append, List.nil_append, codes, h1, h2, h8, if_false, List.foldr]

theorem foldr_push (l : List Nat) (ns : List Nat) (rest : List Char) :
    l.foldr push (some (ns, rest)) = some (l ++ ns, rest) := by
  induction l with
  | nil => rfl
  | cons a l ih => simp only [List.foldr, ih, push, Option.map, List.cons_append]

theorem codes_string (lib : Lib) (cs rest : List Char) :
    codes .text (cs.flatMap (escape lib) ++ '"' :: rest) = some (cs.flatMap (units lib), rest) := by
  induction cs with
  | nil => simp only [List.flatMap_nil, List.nil_append, codes, if_true]
  | cons c cs ih =>
    rw [List.flatMap_cons, List.flatMap_cons, List.append_assoc, codes_escape, ih, foldr_push]

theorem join_units (lib : Lib) (cs : List Char) : join none (cs.flatMap (units lib)) = some cs := by
  induction cs with
  | nil => rfl
  | cons c cs ih =>
    rw [List.flatMap_cons]
    have hr := char_range c
    by_cases h : lib = .python ∧ 65536 ≤ c.toNat
    · have hu : units lib c = [0xd800 + (c.toNat - 65536) / 1024, 0xdc00 + (c.toNat - 65536) % 1024] := if_pos h
      rw [hu]
      simp only [List.cons_append, List.nil_append, join]
      rw [if_pos (by omega), if_pos (by omega), ih]
      simp only [Option.map]
      rw [ofNat_toNat c _ (by omega)]
    · have hu : units lib c = [c.toNat] := if_neg h
      rw [hu]
      simp only [List.cons_append, List.nil_append, join]
      rw [if_neg (by omega), if_neg (by omega), ih]
      simp only [Option.map]
      rw [ofNat_toNat c _ rfl]

theorem string_quote (lib : Lib) (s : String) (rest : List Char) :
    string (s.toList.flatMap (escape lib) ++ '"' :: rest) = some (s, rest) := by
  simp only [string, codes_string, join_units, bind, Option.bind, pure, String.ofList_toList]

/-! ## Numbers -/

/-- A text that does not go on with a number. -/
def Ends (rest : List Char) : Prop := ∀ c r, rest = c :: r → c.isDigit = false ∧ c ≠ '.' ∧ c ≠ 'e' ∧ c ≠ 'E'

theorem ends_float {rest : List Char} (h : Ends rest) : isFloat rest = false := by
  cases rest with
  | nil => rfl
  | cons c r =>
    obtain ⟨-, h1, h2, h3⟩ := h c r rfl
    simp [isFloat, h1, h2, h3]

theorem takeWhile_append_all {p : Char → Bool} (l rest : List Char) (h : ∀ c ∈ l, p c = true)
    (hr : ∀ c r, rest = c :: r → p c = false) :
    (l ++ rest).takeWhile p = l ∧ (l ++ rest).dropWhile p = rest := by
  induction l with
  | nil =>
    cases rest with
    | nil => exact ⟨rfl, rfl⟩
    | cons c r => simp [hr c r rfl]
  | cons a l ih =>
    obtain ⟨h1, h2⟩ := ih (fun c hc => h c (List.mem_cons_of_mem _ hc))
    have ha := h a (List.mem_cons_self ..)
    simp [ha, h1, h2]

theorem toDigits_head (n : Nat) (hn : n ≠ 0) : ∃ c r, Nat.toDigits 10 n = c :: r ∧ c ≠ '0' := by
  induction n using Nat.strongRecOn with
  | _ n ih =>
    by_cases h : n < 10
    · rw [Nat.toDigits_of_lt_base h]
      refine ⟨_, _, rfl, ?_⟩
      have : n = 1 ∨ n = 2 ∨ n = 3 ∨ n = 4 ∨ n = 5 ∨ n = 6 ∨ n = 7 ∨ n = 8 ∨ n = 9 := by omega
      rcases this with rfl | rfl | rfl | rfl | rfl | rfl | rfl | rfl | rfl <;> decide
    · obtain ⟨c, r, hc, hne⟩ := ih (n / 10) (by omega) (by omega)
      rw [Nat.toDigits_of_base_le (by decide) (by omega), hc]
      exact ⟨c, _, rfl, hne⟩

theorem isDigit_digits {n : Nat} {c : Char} (h : c ∈ Nat.toDigits 10 n) : c.isDigit = true :=
  Nat.isDigit_of_mem_toDigits (by decide) (by decide) h

theorem digits_repr (n : Nat) (rest : List Char) (h : Ends rest) :
    digits (Nat.toDigits 10 n ++ rest) = some (n, rest) := by
  by_cases hn : n = 0
  · subst hn
    rfl
  · obtain ⟨c, r, hc, hne⟩ := toDigits_head n hn
    obtain ⟨h1, h2⟩ := takeWhile_append_all (p := Char.isDigit) (Nat.toDigits 10 n) rest (fun c hc => isDigit_digits hc)
      (fun c r hr => (h c r hr).1)
    have hd : c.isDigit = true := isDigit_digits (n := n) (by rw [hc]; exact List.mem_cons_self ..)
    rw [hc] at h1 h2 ⊢
    simp only [digits, List.cons_append, hne, if_false, hd, if_true]
    rw [List.cons_append] at h1 h2
    rw [h1, h2, ← hc, Nat.ofDigitChars_ten_toDigits]

theorem int_repr (n : Int) : n.repr.toList =
    match n with
    | .ofNat m => Nat.toDigits 10 m
    | .negSucc m => '-' :: Nat.toDigits 10 (m + 1) := by
  cases n with
  | ofNat m => exact Nat.toList_repr
  | negSucc m =>
    show ("-" ++ (m + 1).repr).toList = _
    rw [String.toList_append, Nat.toList_repr]
    rfl

theorem number_repr (n : Int) (rest : List Char) (h : Ends rest) :
    number (n.repr.toList ++ rest) = some (.num n, rest) := by
  rw [int_repr]
  cases n with
  | ofNat m =>
    show number (Nat.toDigits 10 m ++ rest) = _
    have hd := digits_repr m rest h
    cases hl : Nat.toDigits 10 m with
    | nil => exact absurd hl Nat.toDigits_ne_nil
    | cons c r =>
      have hc : c.isDigit = true := isDigit_digits (n := m) (by rw [hl]; exact List.mem_cons_self ..)
      have hne : c ≠ '-' := by rintro rfl; exact absurd hc (by decide)
      rw [hl, List.cons_append] at hd
      simp only [number, List.cons_append, hne, if_false, hd, Option.map, ends_float h]
      rfl
  | negSucc m =>
    show number ('-' :: Nat.toDigits 10 (m + 1) ++ rest) = _
    simp only [number, List.cons_append, if_true, digits_repr (m + 1) rest h, Option.map, ends_float h]
    rfl

/-- The first character of a number. -/
theorem int_head (n : Int) : ∃ c r, n.repr.toList = c :: r ∧ (c = '-' ∨ c.isDigit = true) := by
  rw [int_repr]
  cases n with
  | ofNat m =>
    show ∃ c r, Nat.toDigits 10 m = c :: r ∧ _
    cases hl : Nat.toDigits 10 m with
    | nil => exact absurd hl Nat.toDigits_ne_nil
    | cons c r => exact ⟨c, r, rfl, .inr (isDigit_digits (n := m) (by rw [hl]; exact List.mem_cons_self ..))⟩
  | negSucc m => exact ⟨_, _, rfl, .inl rfl⟩

/-! ## Values -/

theorem skip_cons {c : Char} (r : List Char) (h : isSpace c = false) : skip (c :: r) = c :: r := by
  simp [skip, List.dropWhile, h]

/-- The first character of a value. -/
theorem dump_head (lib : Lib) (j : Json) : ∃ c r, dump lib j = c :: r ∧ isSpace c = false ∧ c ≠ ']' := by
  cases j with
  | null => exact ⟨_, _, by rw [dump], by decide, by decide⟩
  | bool b => cases b <;> exact ⟨_, _, by rw [dump], by decide, by decide⟩
  | num n =>
    obtain ⟨c, r, h, hc⟩ := int_head n
    refine ⟨c, r, by rw [dump, h], ?_, ?_⟩
    · rcases hc with rfl | hc
      · rfl
      · simp only [isSpace, Bool.or_eq_false_iff, beq_eq_false_iff_ne]
        refine ⟨⟨⟨?_, ?_⟩, ?_⟩, ?_⟩ <;> (rintro rfl; exact absurd hc (by decide))
    · rintro rfl
      rcases hc with hc | hc <;> exact absurd hc (by decide)
  | str s => exact ⟨_, _, by rw [dump, quote], by decide, by decide⟩
  | arr l => exact ⟨_, _, by rw [dump], by decide, by decide⟩
  | obj l => exact ⟨_, _, by rw [dump], by decide, by decide⟩

mutual
/-- No object has a key twice: what every Python value satisfies. -/
def Proper : Json → Prop
  | .arr l => ProperList l
  | .obj kvs => Dict.WF kvs ∧ ProperKvs kvs
  | _ => True

def ProperList : List Json → Prop
  | [] => True
  | x :: l => Proper x ∧ ProperList l

def ProperKvs : List (String × Json) → Prop
  | [] => True
  | kv :: l => Proper kv.2 ∧ ProperKvs l
end

theorem ends_cons {c : Char} {r : List Char} (h : c.isDigit = false ∧ c ≠ '.' ∧ c ≠ 'e' ∧ c ≠ 'E') : Ends (c :: r) := by
  intro c' r' e
  cases e
  exact h

theorem update_self {α β : Type} [DecidableEq α] (d : Dict α β) (h : d.WF) : Dict.update [] d = d := by
  have key : ∀ (e d : Dict α β), (d ++ e).WF → Dict.update d e = d ++ e := by
    intro e
    induction e with
    | nil => intro d _; simp [Dict.update]
    | cons kv e ih =>
      intro d hd
      have hset : d.set kv.1 kv.2 = d ++ [kv] := by
        have hn : kv.1 ∉ d.keys := by
          unfold Dict.WF Dict.keys at hd
          rw [List.map_append, List.nodup_append] at hd
          exact fun hm => hd.2.2 _ hm kv.1 (by simp) rfl
        clear hd ih
        induction d with
        | nil => rfl
        | cons p d ihd =>
          rw [Dict.keys_cons, List.mem_cons, not_or] at hn
          rw [Dict.set, if_neg (Ne.symm hn.1), ihd hn.2]
          rfl
      show Dict.update (d.set kv.1 kv.2) e = _
      rw [hset, ih _ (by rw [List.append_assoc]; exact hd), List.append_assoc]
      rfl
  exact key d [] h

mutual
theorem value_dump (lib : Lib) : ∀ (j : Json) (fuel : Nat) (rest : List Char), Proper j → Ends rest →
    2 * (dump lib j).length < fuel → value fuel (dump lib j ++ rest) = some (j, rest)
  | .null, fuel + 1, rest, _, _, _ => by
    rw [dump]
    rfl
  | .bool true, fuel + 1, rest, _, _, _ => by
    rw [dump]
    rfl
  | .bool false, fuel + 1, rest, _, _, _ => by
    rw [dump]
    rfl
  | .num n, fuel + 1, rest, _, he, _ => by
    rw [dump]
    obtain ⟨c, r, h, hc⟩ := int_head n
    have hn := number_repr n rest he
    rw [h, List.cons_append] at hn ⊢
    have hs : isSpace c = false := by
      rcases hc with rfl | hc
      · rfl
      · simp only [isSpace, Bool.or_eq_false_iff, beq_eq_false_iff_ne]
        refine ⟨⟨⟨?_, ?_⟩, ?_⟩, ?_⟩ <;> (rintro rfl; exact absurd hc (by decide))
    have hne : ∀ d : Char, d ≠ '-' → d.isDigit = false → c ≠ d := by
      intro d h1 h2 e
      subst e
      rcases hc with hc | hc
      · exact h1 hc
      · rw [h2] at hc; exact absurd hc (by decide)
    rw [value, skip_cons _ hs]
    simp only [hne '"' (by decide) (by decide), hne '[' (by decide) (by decide), hne '{' (by decide) (by decide),
      hne 'n' (by decide) (by decide), hne 't' (by decide) (by decide), hne 'f' (by decide) (by decide), if_false, hn]
  | .str s, fuel + 1, rest, _, _, _ => by
    rw [dump, quote, List.cons_append, List.append_assoc, value, skip_cons _ (by decide)]
    simp only [if_true, List.cons_append, List.nil_append, string_quote, Option.map]
  | .arr l, fuel + 1, rest, hp, he, hf => by
    rw [dump, List.cons_append, List.append_assoc, value, skip_cons _ (by decide)]
    simp only [List.cons_append, List.nil_append]
    rw [if_neg (by decide), if_pos trivial]
    cases l with
    | nil => rfl
    | cons x l =>
      rw [dump] at hf
      have hi := items_dump lib x l fuel rest (by rw [Proper] at hp; exact hp) (by simp at hf; omega)
      have hh : (skip (dumpItems lib (x :: l) ++ ']' :: rest)).head? ≠ some ']' := by
        obtain ⟨c, r, hd, hs, hb⟩ := dump_head lib x
        have : ∃ r', dumpItems lib (x :: l) = c :: r' := by
          cases l with
          | nil => exact ⟨r, by rw [dumpItems, hd]⟩
          | cons y l' => exact ⟨_, by rw [dumpItems, hd, List.cons_append]⟩
        obtain ⟨r', hr'⟩ := this
        rw [hr', List.cons_append, skip_cons _ hs]
        simpa using hb
      rw [if_neg hh, hi]
      rfl
  | .obj l, fuel + 1, rest, hp, he, hf => by
    rw [dump, List.cons_append, List.append_assoc, value, skip_cons _ (by decide)]
    simp only [List.cons_append, List.nil_append]
    rw [if_neg (by decide), if_neg (by decide), if_pos trivial]
    cases l with
    | nil => rfl
    | cons x l =>
      rw [dump] at hf
      rw [Proper] at hp
      have hi := members_dump lib x l fuel rest hp.2 (by simp at hf; omega)
      have hh : (skip (dumpMembers lib (x :: l) ++ '}' :: rest)).head? ≠ some '}' := by
        have : ∃ r', dumpMembers lib (x :: l) = '"' :: r' := by
          cases l with
          | nil => exact ⟨_, by rw [dumpMembers, quote, List.cons_append]⟩
          | cons y l' => exact ⟨_, by rw [dumpMembers, quote, List.cons_append]⟩
        obtain ⟨r', hr'⟩ := this
        rw [hr', List.cons_append, skip_cons _ (by decide)]
        simp
      rw [if_neg hh, hi]
      simp only [Option.map]
      rw [update_self _ hp.1]

theorem items_dump (lib : Lib) : ∀ (x : Json) (l : List Json) (fuel : Nat) (rest : List Char), ProperList (x :: l) →
    2 * (dumpItems lib (x :: l)).length + 1 < fuel → items fuel (dumpItems lib (x :: l) ++ ']' :: rest) = some (x :: l, rest)
  | x, [], fuel + 1, rest, hp, hf => by
    rw [ProperList] at hp
    rw [dumpItems] at hf ⊢
    rw [items, value_dump lib x fuel (']' :: rest) hp.1 (ends_cons (by decide)) (by omega)]
    simp only [skip_cons _ (show isSpace ']' = false by decide)]
    rfl
  | x, y :: l, fuel + 1, rest, hp, hf => by
    rw [ProperList] at hp
    rw [dumpItems] at hf ⊢
    simp only [List.length_append, List.length_cons] at hf
    rw [List.append_assoc, List.cons_append, items,
      value_dump lib x fuel _ hp.1 (ends_cons (by decide)) (by omega)]
    simp only [skip_cons _ (show isSpace ',' = false by decide), if_true]
    rw [items_dump lib y l fuel rest hp.2 (by omega)]
    rfl

theorem members_dump (lib : Lib) : ∀ (x : String × Json) (l : List (String × Json)) (fuel : Nat) (rest : List Char),
    ProperKvs (x :: l) → 2 * (dumpMembers lib (x :: l)).length + 1 < fuel →
    members fuel (dumpMembers lib (x :: l) ++ '}' :: rest) = some (x :: l, rest)
  | (k, v), [], fuel + 2, rest, hp, hf => by
    rw [ProperKvs] at hp
    rw [dumpMembers] at hf ⊢
    simp only [List.length_append, List.length_cons] at hf
    have hv := value_dump lib v fuel ('}' :: rest) hp.1 (ends_cons (by decide)) (by omega)
    rw [members, member, quote]
    simp only [List.cons_append, List.append_assoc, List.nil_append, skip_cons _ (show isSpace '"' = false by decide), if_true,
      string_quote, skip_cons _ (show isSpace ':' = false by decide), hv, Option.map,
      skip_cons _ (show isSpace '}' = false by decide)]
    rfl
  | (k, v), y :: l, fuel + 2, rest, hp, hf => by
    rw [ProperKvs] at hp
    rw [dumpMembers] at hf ⊢
    simp only [List.length_append, List.length_cons] at hf
    have hv := value_dump lib v fuel (',' :: (dumpMembers lib (y :: l) ++ '}' :: rest)) hp.1 (ends_cons (by decide)) (by omega)
    rw [members, member, quote]
    simp only [List.cons_append, List.append_assoc, List.nil_append, skip_cons _ (show isSpace '"' = false by decide), if_true,
      string_quote, skip_cons _ (show isSpace ':' = false by decide), hv, Option.map,
      skip_cons _ (show isSpace ',' = false by decide)]
    rw [members_dump lib y l (fuel + 1) rest hp.2 (by omega)]
  | (k, v), [], 0, rest, hp, hf => by omega
  | (k, v), [], 1, rest, hp, hf => by omega
  | (k, v), _ :: _, 0, rest, hp, hf => by omega
  | (k, v), _ :: _, 1, rest, hp, hf => by omega
end

theorem loads_dumps (lib : Lib) (j : Json) (h : Proper j) : loads (dumps lib j) = some j := by
  unfold loads dumps
  have hv := value_dump lib j (2 * (dump lib j).length + 2) [] h (fun c r e => nomatch e) (by omega)
  rw [List.append_nil] at hv
  rw [String.toList_ofList, hv]
  rfl

end Kasa.JsonText
