import Verif.Model.Stream
/-!
# Specification: reading a URL (RFC 3986)
-/

namespace Kasa.StreamSpec

/-- The parts of a URL with a user and a password, as written. -/
structure Url where
  scheme : List Char
  user : List Char
  password : List Char
  host : List Char
  port : List Char
  path : List Char
  deriving DecidableEq

/-- Split at the first `c`. -/
def cut (c : Char) : List Char → Option (List Char × List Char)
  | [] => none
  | d :: s => if d = c then some ([], s) else (cut c s).map fun x => (d :: x.1, x.2)

/-- Split at the last `c`. -/
def cutLast (c : Char) (s : List Char) : Option (List Char × List Char) :=
  (cut c s.reverse).map fun x => (x.2.reverse, x.1.reverse)

/-- scheme `://` user `:` password `@` host `:` port `/` path.  The authority ends at the first slash, the user information
at the last at sign before it, the user at the first colon, the host at the last colon. -/
def parse (s : List Char) : Option Url := do
  let (scheme, s) ← cut ':' s
  let s ← if s.take 2 = ['/', '/'] then some (s.drop 2) else none
  let (authority, path) ← cut '/' s
  let (userinfo, hostport) ← cutLast '@' authority
  let (user, password) ← cut ':' userinfo
  let (host, port) ← cutLast ':' hostport
  pure { scheme, user, password, host, port, path }

/-- The value of a hexadecimal digit, of either case. -/
def hex (c : Char) : Option Nat :=
  if 48 ≤ c.toNat ∧ c.toNat ≤ 57 then some (c.toNat - 48)
  else if 97 ≤ c.toNat ∧ c.toNat ≤ 102 then some (c.toNat - 87)
  else if 65 ≤ c.toNat ∧ c.toNat ≤ 70 then some (c.toNat - 55)
  else none

/-- Percent-decoding (RFC 3986, 2.1): `plus` tells what a plus sign stands for. -/
def percent (plus : UInt8) : List Char → Option Bytes
  | [] => some []
  | '%' :: a :: b :: s => do
    let h ← hex a
    let l ← hex b
    let r ← percent plus s
    pure (UInt8.ofNat (h * 16 + l) :: r)
  | c :: s => do
    let r ← percent plus s
    if c = '+' then pure (plus :: r)
    else if c = '%' then none
    else if c.toNat < 128 then pure (UInt8.ofNat c.toNat :: r)
    else none

/-- What a part of a URL stands for: a plus sign is a plus sign. -/
def decoded (s : List Char) : Option String := (percent 43 s).bind fromUtf8

/-- What a value in an HTML form stands for: a plus sign is a space. -/
def formDecoded (s : List Char) : Option String := (percent 32 s).bind fromUtf8

end Kasa.StreamSpec
