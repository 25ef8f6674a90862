import Verif.Py.Text
import Verif.Py.Json
import Verif.Py.Dict
/-!
# JSON texts (json.py)

`dumps` and `loads` of the two libraries that json.py chooses from: orjson, and Python's own if orjson is not installed.
Both write compact texts; they differ in the characters they escape.  Not modelled: floats (no `Json` has them), the limits
of orjson (integers of more than 64 bits, depth), lone surrogates in escapes (no `String` has them), indented output.
-/

namespace Kasa.JsonText

/-! ## Writing -/

/-- Which library: orjson (json.py:9-20) or Python's (json.py:21-31). -/
inductive Lib where
  | orjson | python
  deriving DecidableEq, Repr

/-- A hexadecimal digit. -/
def hexChar (n : Nat) : Char := "0123456789abcdef".toList.getD n '0'

/-- `'{:04x}'.format(n)`. -/
def hex4 (n : Nat) : List Char :=
  [hexChar (n / 4096 % 16), hexChar (n / 256 % 16), hexChar (n / 16 % 16), hexChar (n % 16)]

/-- `\uXXXX`. -/
def unicodeEscape (n : Nat) : List Char := '\\' :: 'u' :: hex4 n

/-- A character in a string (orjson: RFC 8259 with the short escapes; Python's `py_encode_basestring_ascii`). -/
def escape (lib : Lib) (c : Char) : List Char :=
  if c = '"' then ['\\', '"']
  else if c = '\\' then ['\\', '\\']
  else if c = '\n' then ['\\', 'n']
  else if c = '\r' then ['\\', 'r']
  else if c = '\t' then ['\\', 't']
  else if c.toNat = 8 then ['\\', 'b']
  else if c.toNat = 12 then ['\\', 'f']
  else if c.toNat < 32 then unicodeEscape c.toNat
  else if lib = .python ∧ 127 ≤ c.toNat then
    if c.toNat < 65536 then unicodeEscape c.toNat
    else unicodeEscape (0xd800 + (c.toNat - 65536) / 1024) ++ unicodeEscape (0xdc00 + (c.toNat - 65536) % 1024)
  else [c]

/-- A string. -/
def quote (lib : Lib) (s : String) : List Char := '"' :: (s.toList.flatMap (escape lib) ++ ['"'])

mutual
/-- A value (json.py:12-18, 24-29). -/
def dump (lib : Lib) : Json → List Char
  | .null => ['n', 'u', 'l', 'l']
  | .bool true => ['t', 'r', 'u', 'e']
  | .bool false => ['f', 'a', 'l', 's', 'e']
  | .num n => n.repr.toList
  | .str s => quote lib s
  | .arr l => '[' :: (dumpItems lib l ++ [']'])
  | .obj kvs => '{' :: (dumpMembers lib kvs ++ ['}'])

/-- The values of a list. -/
def dumpItems (lib : Lib) : List Json → List Char
  | [] => []
  | x :: l =>
    match l with
    | [] => dump lib x
    | y :: l' => dump lib x ++ ',' :: dumpItems lib (y :: l')

/-- The members of an object. -/
def dumpMembers (lib : Lib) : List (String × Json) → List Char
  | [] => []
  | kv :: l =>
    match l with
    | [] => quote lib kv.1 ++ ':' :: dump lib kv.2
    | y :: l' => quote lib kv.1 ++ ':' :: (dump lib kv.2 ++ ',' :: dumpMembers lib (y :: l'))
end

/-- `dumps` (json.py:12-18, 24-29). -/
def dumps (lib : Lib) (j : Json) : String := String.ofList (dump lib j)

/-! ## Reading -/

/-- Space, tab, line feed and carriage return. -/
def isSpace (c : Char) : Bool := c == ' ' || c == '\t' || c == '\n' || c == '\r'

/-- The text without the spaces it begins with. -/
def skip (s : List Char) : List Char := s.dropWhile isSpace

/-- The value of a hexadecimal digit, of either case. -/
def hexVal (c : Char) : Option Nat :=
  if 48 ≤ c.toNat ∧ c.toNat ≤ 57 then some (c.toNat - 48)
  else if 97 ≤ c.toNat ∧ c.toNat ≤ 102 then some (c.toNat - 87)
  else if 65 ≤ c.toNat ∧ c.toNat ≤ 70 then some (c.toNat - 55)
  else none

/-- The short escapes. -/
def unescape (c : Char) : Option Nat :=
  if c = '"' then some 34
  else if c = '\\' then some 92
  else if c = '/' then some 47
  else if c = 'n' then some 10
  else if c = 'r' then some 13
  else if c = 't' then some 9
  else if c = 'b' then some 8
  else if c = 'f' then some 12
  else none

/-- Where the reader of a string is: in the text, after a backslash, or in an escape with `more + 1` digits to come. -/
inductive At where
  | text
  | escape
  | hex (more acc : Nat)

/-- Add a code to those read. -/
def push (n : Nat) (r : Option (List Nat × List Char)) : Option (List Nat × List Char) := r.map fun x => (n :: x.1, x.2)

/-- The codes of a string up to its end, and the text after it. -/
def codes : At → List Char → Option (List Nat × List Char)
  | _, [] => none
  | .text, c :: r =>
    if c = '"' then some ([], r)
    else if c = '\\' then codes .escape r
    else if c.toNat < 32 then none
    else push c.toNat (codes .text r)
  | .escape, c :: r =>
    if c = 'u' then codes (.hex 3 0) r
    else
      match unescape c with
      | some n => push n (codes .text r)
      | none => none
  | .hex more acc, c :: r =>
    match hexVal c with
    | some d => if more = 0 then push (acc * 16 + d) (codes .text r) else codes (.hex (more - 1) (acc * 16 + d)) r
    | none => none

/-- The characters of the codes; two surrogates make a character. -/
def join : Option Nat → List Nat → Option (List Char)
  | none, [] => some []
  | some _, [] => none
  | none, n :: r =>
    if 0xd800 ≤ n ∧ n < 0xdc00 then join (some n) r
    else if 0xdc00 ≤ n ∧ n < 0xe000 then none
    else (join none r).map (Char.ofNat n :: ·)
  | some high, n :: r =>
    if 0xdc00 ≤ n ∧ n < 0xe000 then
      (join none r).map (Char.ofNat (65536 + (high - 0xd800) * 1024 + (n - 0xdc00)) :: ·)
    else none

/-- The string after a quote. -/
def string (s : List Char) : Option (String × List Char) := do
  let (ns, rest) ← codes .text s
  let cs ← join none ns
  pure (String.ofList cs, rest)

/-- A literal: the rest of its letters. -/
def literal (word : List Char) (v : Json) (s : List Char) : Option (Json × List Char) :=
  if word.isPrefixOf s then some (v, s.drop word.length) else none

/-- An integer, without sign. -/
def digits (s : List Char) : Option (Nat × List Char) :=
  match s with
  | [] => none
  | c :: r =>
    if c = '0' then some (0, r)
    else if c.isDigit then some (Nat.ofDigitChars 10 (s.takeWhile Char.isDigit) 0, s.dropWhile Char.isDigit)
    else none

/-- Does a fraction or an exponent follow? -/
def isFloat (s : List Char) : Bool :=
  match s with
  | c :: _ => c == '.' || c == 'e' || c == 'E'
  | [] => false

/-- A number. -/
def number (s : List Char) : Option (Json × List Char) :=
  match s with
  | [] => none
  | c :: r =>
    match (if c = '-' then (digits r).map (fun x => (-(x.1 : Int), x.2)) else (digits s).map (fun x => ((x.1 : Int), x.2))) with
    | some (n, rest) => if isFloat rest then none else some (.num n, rest)
    | none => none

mutual
/-- A value and the text after it. -/
def value : Nat → List Char → Option (Json × List Char)
  | 0, _ => none
  | fuel + 1, s =>
    match skip s with
    | [] => none
    | c :: r =>
      if c = '"' then (string r).map fun x => (.str x.1, x.2)
      else if c = '[' then
        if (skip r).head? = some ']' then some (.arr [], (skip r).tail) else (items fuel r).map fun x => (.arr x.1, x.2)
      else if c = '{' then
        if (skip r).head? = some '}' then some (.obj [], (skip r).tail)
        else (members fuel r).map fun x => (.obj (Dict.update [] x.1), x.2)
      else if c = 'n' then literal ['u', 'l', 'l'] .null r
      else if c = 't' then literal ['r', 'u', 'e'] (.bool true) r
      else if c = 'f' then literal ['a', 'l', 's', 'e'] (.bool false) r
      else number (c :: r)

/-- The values of a list, at least one, up to the bracket. -/
def items : Nat → List Char → Option (List Json × List Char)
  | 0, _ => none
  | fuel + 1, s =>
    match value fuel s with
    | none => none
    | some (v, r) =>
      match skip r with
      | [] => none
      | c :: r' =>
        if c = ',' then (items fuel r').map fun x => (v :: x.1, x.2)
        else if c = ']' then some ([v], r')
        else none

/-- The members of an object, at least one, up to the brace. -/
def members : Nat → List Char → Option (List (String × Json) × List Char)
  | 0, _ => none
  | fuel + 1, s =>
    match member fuel s with
    | none => none
    | some (kv, r) =>
      match skip r with
      | [] => none
      | c :: r' =>
        if c = ',' then (members fuel r').map fun x => (kv :: x.1, x.2)
        else if c = '}' then some ([kv], r')
        else none

/-- One member. -/
def member : Nat → List Char → Option ((String × Json) × List Char)
  | 0, _ => none
  | fuel + 1, s =>
    match skip s with
    | [] => none
    | c :: r =>
      if c = '"' then
        match string r with
        | none => none
        | some (k, r1) =>
          match skip r1 with
          | [] => none
          | c' :: r2 => if c' = ':' then (value fuel r2).map fun x => ((k, x.1), x.2) else none
      else none
end

/-- `loads` (json.py:20, 31) of a text: `none` if it raises.  Each step of the reader takes a character, so the length of the
text is enough. -/
def loads (text : String) : Option Json :=
  match value (2 * text.toList.length + 2) text.toList with
  | some (v, rest) => if skip rest = [] then some v else none
  | none => none

end Kasa.JsonText
