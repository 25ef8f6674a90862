import Verif.Py.Heap
/-!
# Redaction of logged data (protocols/protocol.py, and the tables of the protocols and of discovery)
-/

namespace Kasa.Redact

/-- What may stand in a redactor table: `None` or a function, which may raise (its exception is swallowed, so it is not
kept). -/
abbrev Redactor := Option (Json → Option Json)

/-- A redactor table. -/
abbrev Table := Dict String Redactor

/-- The values that are left alone: `None` and the empty string (protocol.py:47-50). -/
def skipped : Json → Bool
  | .null => true
  | .str s => s == ""
  | _ => false

/-- The value put under a key that has a redactor (protocol.py:52-58). -/
def masked : Redactor → Json → Json
  | some f, v =>
    match f v with
    | some w => w
    | none => .str "**REDACTEX**"
  | none, _ => .str "**REDACTED**"

mutual
/-- `redact_data` as a function from values to values (protocol.py:36-64).  The heap version below shows which objects
are created and changed. -/
def redact (R : Table) : Json → Json
  | .arr xs => .arr (redactList R xs)
  | .obj kvs => .obj (redactKvs R kvs)
  | .null => .null
  | .bool b => .bool b
  | .num n => .num n
  | .str s => .str s
/-- The list comprehensions (protocol.py:42, 62). -/
def redactList (R : Table) : List Json → List Json
  | [] => []
  | x :: xs => redact R x :: redactList R xs
/-- The loop over the items (protocol.py:46-62); a value that is neither a dict nor a list is kept, which is what
`redact` does with it. -/
def redactKvs (R : Table) : List (String × Json) → List (String × Json)
  | [] => []
  | (k, v) :: kvs =>
    (k, if skipped v then v else match Dict.get? R k with
      | some r => masked r v
      | none => redact R v) :: redactKvs R kvs
end

/-! ## On the heap -/

open Heap PyM

/-- A redactor as it runs: it may create objects, and may raise. -/
abbrev HRedactor := Option (Val → PyM Mem Val)

abbrev HTable := Dict String HRedactor

/-- protocol.py:47-50. -/
def skippedV : Val → Bool
  | .null => true
  | .str s => s == ""
  | _ => false

/-- `try: redactor(value) except: "**REDACTEX**"`, or `"**REDACTED**"` (protocol.py:52-58). -/
def maskedH : HRedactor → Val → PyM Mem Val
  | some f, v => tryExcept (f v) fun _ => pure (.str "**REDACTEX**")
  | none, _ => pure (.str "**REDACTED**")

/-- The list comprehension. -/
def mapH (f : Val → PyM Mem Val) : List Val → PyM Mem (List Val)
  | [] => pure []
  | x :: xs => do
    let y ← f x
    let ys ← mapH f xs
    pure (y :: ys)

/-- One iteration of the loop over the items of the copy at address `a` (protocol.py:46-62).  `again` is the recursive
call. -/
def itemH (R : HTable) (again : Val → PyM Mem Val) (a : Nat) (kv : String × Val) : PyM Mem Unit :=
  if skippedV kv.2 then pure ()
  else match Dict.get? R kv.1 with
    | some r => do
      let w ← maskedH r kv.2
      setItem a kv.1 w
    | none => do
      let h ← getS
      match deref h kv.2 with
      | none => pure ()
      | some _ => do
        let w ← again kv.2
        setItem a kv.1 w

/-- `{**data}`: a new dict with the same items; its address. -/
def allocDict (kvs : List (String × Val)) : PyM Mem Nat := fun h => (.ok h.length, h ++ [.dict kvs])

/-- `redact_data` (protocol.py:36-64) on objects.  `depth` is what is left of the interpreter's stack; when it is used
up Python raises `RecursionError`.  A list under a key is handled by the same list comprehension inline
(protocol.py:62), which here is the recursive call. -/
def redactH (R : HTable) : Nat → Val → PyM Mem Val
  | 0, _ => raise (.other "RecursionError")
  | depth + 1, v => do
    let h ← getS
    match deref h v with
    | none => pure v
    | some (.list xs) => do
      let ys ← mapH (redactH R depth) xs
      alloc (.list ys)
    | some (.dict kvs) => do
      let a ← allocDict kvs
      forEach (itemH R (redactH R depth) a) kvs
      pure (.ref a)

/-! ## The tables -/

/-- `lambda x: 0` and the like. -/
def const (j : Json) : Redactor := some fun _ => some j

/-- `lambda x: <text> if x else ""`. -/
def nameLike (text : String) : Redactor := some fun x => some (.str (if x.truthy then text else ""))

/-- `lambda x: "REDACTED_" + x[9::]`; raises unless `x` is a string (adding a list to a string raises too). -/
def idLike : Redactor := some fun x =>
  match x with
  | .str s => some (.str ("REDACTED_" ++ String.ofList (s.toList.drop 9)))
  | _ => none

/-- `mask_mac` on a string (protocol.py:67-73). -/
def maskMacStr (mac : String) : String :=
  if mac.toList.length = 12 then String.ofList (mac.toList.take 6) ++ "000000"
  else
    let delim := if ':' ∈ mac.toList then ":" else "-"
    String.ofList (mac.toList.take 8) ++ delim ++ ("00" ++ delim ++ "00" ++ delim ++ "00")

/-- `mask_mac` (protocol.py:67-73).  Slicing a list also works and gives its printed form, which is the parameter
`printed`; anything else raises. -/
def macLike (printed : List Json → String) : Redactor := some fun x =>
  match x with
  | .str s => some (.str (maskMacStr s))
  | .arr xs =>
    if xs.length = 12 then some (.str (printed (xs.take 6) ++ "000000"))
    else
      let delim := if Json.str ":" ∈ xs then ":" else "-"
      some (.str (printed (xs.take 8) ++ delim ++ ("00" ++ delim ++ "00" ++ delim ++ "00")))
  | _ => none

/-- `lambda x: re.sub(r"\w", "0", x)`; which characters are word characters is the parameter. -/
def wordLike (isWord : Char → Bool) : Redactor := some fun x =>
  match x with
  | .str s => some (.str (String.ofList (s.toList.map fun c => if isWord c then '0' else c)))
  | _ => none

/-- `lambda x: x`. -/
def keep : Redactor := some fun x => some x

/-- `mask_child` (iotprotocol.py:30-38): raises unless the child is a dict. -/
def maskChild (index : Nat) : Json → Option Json
  | .obj kvs =>
    let result := Dict.set kvs "id" (.str ("SCRUBBED_CHILD_DEVICE_ID_" ++ toString (index + 1)))
    some (.obj (match Dict.get? kvs "alias" with
      | some a => if a.truthy then Dict.set result "alias" (.str ("#MASKED_NAME# " ++ toString (index + 1))) else result
      | none => result))
  | _ => none

/-- The comprehension over `enumerate(children)` (iotprotocol.py:40). -/
def maskChildrenFrom (index : Nat) : List Json → Option (List Json)
  | [] => some []
  | x :: xs => do
    let y ← maskChild index x
    let ys ← maskChildrenFrom (index + 1) xs
    pure (y :: ys)

/-- Iterating a string or a dict gives strings, which are no children; iterating nothing gives `[]`. -/
def iterated : Json → Option (List Json)
  | .arr xs => some xs
  | .str s => some (s.toList.map fun c => .str (String.ofList [c]))
  | .obj kvs => some (kvs.map fun kv => .str kv.1)
  | _ => none

/-- `_mask_children` (iotprotocol.py:29-40). -/
def maskChildren : Redactor := some fun x => do
  let xs ← iterated x
  let ys ← maskChildrenFrom 0 xs
  pure (.arr ys)

/-- `mask_area` (smartprotocol.py:41-46). -/
def maskArea : Json → Option Json
  | .obj kvs => some (.obj (match Dict.get? kvs "name" with
      | some a => if a.truthy then Dict.set kvs "name" (.str "I01BU0tFRF9OQU1FIw==") else kvs
      | none => kvs))
  | _ => none

def maskAreas : List Json → Option (List Json)
  | [] => some []
  | x :: xs => do
    let y ← maskArea x
    let ys ← maskAreas xs
    pure (y :: ys)

/-- `_mask_area_list` (smartprotocol.py:40-48). -/
def maskAreaList : Redactor := some fun x => do
  let xs ← iterated x
  let ys ← maskAreas xs
  pure (.arr ys)

/-- `lambda x: {**x, "key": "", "data": ""}` (discover.py:187). -/
def maskEncryptInfo : Redactor := some fun x =>
  match x with
  | .obj kvs => some (.obj (Dict.set (Dict.set kvs "key" (.str "")) "data" (.str "")))
  | _ => none

section
variable (printed : List Json → String) (isWord : Char → Bool)

/-- `REDACTORS` of the legacy protocol (iotprotocol.py:43-57). -/
def iotTable : Table :=
  [("latitude", const (.num 0)), ("longitude", const (.num 0)), ("latitude_i", const (.num 0)),
   ("longitude_i", const (.num 0)), ("deviceId", idLike), ("children", maskChildren),
   ("alias", nameLike "#MASKED_NAME#"), ("mac", macLike printed), ("mic_mac", macLike printed),
   ("ssid", nameLike "#MASKED_SSID#"), ("oemId", idLike), ("username", const (.str "user@example.com")),
   ("hwId", idLike)]

/-- `REDACTORS` of the SMART protocol (smartprotocol.py:51-90). -/
def smartTable : Table :=
  [("latitude", const (.num 0)), ("longitude", const (.num 0)), ("la", const (.num 0)), ("lo", const (.num 0)),
   ("device_id", idLike), ("parent_device_id", idLike), ("original_device_id", idLike),
   ("nickname", nameLike "I01BU0tFRF9OQU1FIw=="), ("mac", macLike printed), ("ssid", nameLike "I01BU0tFRF9TU0lEIw=="),
   ("bssid", const (.str "000000000000")), ("channel", const (.num 0)), ("oem_id", idLike), ("hw_id", idLike),
   ("fw_id", idLike), ("setup_code", wordLike isWord), ("setup_payload", wordLike isWord),
   ("mfi_setup_code", wordLike isWord), ("mfi_setup_id", wordLike isWord), ("mfi_token_token", wordLike isWord),
   ("mfi_token_uuid", wordLike isWord), ("ip", keep), ("dev_id", idLike), ("ext_addr", idLike),
   ("device_name", nameLike "#MASKED_NAME#"), ("device_alias", nameLike "#MASKED_NAME#"),
   ("alias", nameLike "#MASKED_NAME#"), ("local_ip", keep), ("board_sn", const (.str "000000000000")),
   ("custom_sn", const (.str "000000000000")), ("location", nameLike "#MASKED_NAME#"),
   ("map_data", nameLike "#SCRUBBED_MAPDATA#"), ("map_name", const (.str "I01BU0tFRF9OQU1FIw==")),
   ("area_list", maskAreaList), ("cd", const (.str "I01BU0tFRF9CSU5BUlkj"))]

/-- `DECRYPTED_REDACTORS` (discover.py:173-177). -/
def decryptedTable : Table :=
  [("connect_ssid", nameLike "#MASKED_SSID#"), ("device_id", idLike), ("owner", idLike)]

/-- `NEW_DISCOVERY_REDACTORS` (discover.py:179-190). -/
def discoveryTable : Table :=
  [("device_id", idLike), ("device_name", nameLike "#MASKED_NAME#"), ("owner", idLike), ("mac", macLike printed),
   ("master_device_id", idLike), ("group_id", idLike), ("group_name", const (.str "I01BU0tFRF9TU0lEIw==")),
   ("encrypt_info", maskEncryptInfo), ("ip", keep),
   ("decrypted_data", some fun x => some (redact decryptedTable x))]
end

/-! ## The legacy table on the heap -/

/-- Truth value of a value on the heap. -/
def truthyV (h : Mem) : Val → Bool
  | .null => false
  | .bool b => b
  | .num n => n != 0
  | .str s => s != ""
  | .ref a =>
    match h[a]? with
    | some (.list xs) => !xs.isEmpty
    | some (.dict kvs) => !kvs.isEmpty
    | none => false

/-- `lambda x: <scalar>`. -/
def constH (v : Val) : HRedactor := some fun _ => pure v

/-- `lambda x: <text> if x else ""`. -/
def nameLikeH (text : String) : HRedactor := some fun x => do
  let h ← getS
  pure (.str (if truthyV h x then text else ""))

/-- `lambda x: "REDACTED_" + x[9::]`. -/
def idLikeH : HRedactor := some fun x =>
  match x with
  | .str s => pure (.str ("REDACTED_" ++ String.ofList (s.toList.drop 9)))
  | _ => raise (.other "TypeError")

/-- `mask_mac` (protocol.py:67-73); how a slice of a list prints is the parameter. -/
def macLikeH (printedV : Mem → List Val → String) : HRedactor := some fun x => do
  let h ← getS
  match x, deref h x with
  | .str s, _ => pure (.str (maskMacStr s))
  | _, some (.list xs) =>
    if xs.length = 12 then pure (.str (printedV h (xs.take 6) ++ "000000"))
    else
      let delim := if Val.str ":" ∈ xs then ":" else "-"
      pure (.str (printedV h (xs.take 8) ++ delim ++ ("00" ++ delim ++ "00" ++ delim ++ "00")))
  | _, _ => raise (.other "TypeError")

/-- `mask_child` (iotprotocol.py:30-38): the copy is made first, then changed. -/
def maskChildH (index : Nat) (child : Val) : PyM Mem Val := do
  let h ← getS
  match deref h child with
  | some (.dict kvs) => do
    let a ← allocDict (Dict.set kvs "id" (.str ("SCRUBBED_CHILD_DEVICE_ID_" ++ toString (index + 1))))
    match Dict.get? kvs "alias" with
    | some al =>
      if truthyV h al then do
        setItem a "alias" (.str ("#MASKED_NAME# " ++ toString (index + 1)))
        pure (.ref a)
      else pure (.ref a)
    | none => pure (.ref a)
  | _ => raise (.other "TypeError")

def maskChildrenFromH (index : Nat) : List Val → PyM Mem (List Val)
  | [] => pure []
  | x :: xs => do
    let y ← maskChildH index x
    let ys ← maskChildrenFromH (index + 1) xs
    pure (y :: ys)

/-- `_mask_children` (iotprotocol.py:29-40). -/
def maskChildrenH : HRedactor := some fun x => do
  let h ← getS
  match x, deref h x with
  | .str s, _ => if s = "" then alloc (.list []) else raise (.other "TypeError")
  | _, some (.list xs) => do
    let ys ← maskChildrenFromH 0 xs
    alloc (.list ys)
  | _, some (.dict []) => alloc (.list [])
  | _, _ => raise (.other "TypeError")

/-- `REDACTORS` of the legacy protocol (iotprotocol.py:43-57). -/
def iotTableH (printedV : Mem → List Val → String) : HTable :=
  [("latitude", constH (.num 0)), ("longitude", constH (.num 0)), ("latitude_i", constH (.num 0)),
   ("longitude_i", constH (.num 0)), ("deviceId", idLikeH), ("children", maskChildrenH),
   ("alias", nameLikeH "#MASKED_NAME#"), ("mac", macLikeH printedV), ("mic_mac", macLikeH printedV),
   ("ssid", nameLikeH "#MASKED_SSID#"), ("oemId", idLikeH), ("username", constH (.str "user@example.com")),
   ("hwId", idLikeH)]

end Kasa.Redact
