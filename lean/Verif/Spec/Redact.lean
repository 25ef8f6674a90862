import Verif.Py.Heap
/-!
# What a redacted log may show

Independent of the redaction code: positions in a JSON value, and what is sensitive where.
-/

namespace Kasa.RedactSpec

/-- One step down into a value. -/
inductive Step where
  | key (k : String)
  | item (i : Nat)
  deriving DecidableEq, Repr

/-- The value at a position. -/
def at? : Json → List Step → Option Json
  | j, [] => some j
  | .obj kvs, .key k :: p => (Dict.get? kvs k).bind fun v => at? v p
  | .arr xs, .item i :: p => xs[i]?.bind fun v => at? v p
  | _, _ => none

/-- The position is not below any key of `sensitive`. -/
def Outside (sensitive : String → Prop) (p : List Step) : Prop := ∀ k, Step.key k ∈ p → ¬ sensitive k

/-- Nothing to hide. -/
def Blank (v : Json) : Prop := v = .null ∨ v = .str ""

/-- The two values are the same at the top: equal when they are not containers, else with the same keys in the same
order, or the same length. -/
def SameTop : Json → Json → Prop
  | .arr xs, .arr ys => xs.length = ys.length
  | .obj xs, .obj ys => xs.map Prod.fst = ys.map Prod.fst
  | .arr _, _ => False
  | .obj _, _ => False
  | v, w => v = w

mutual
/-- The values look the same to someone who sees, of a non-blank value under a key `k` that has a view (`see k = some
f`), only `f` of it. -/
def LooksSame (see : String → Option (Json → Json)) : Json → Json → Prop
  | .arr xs, .arr ys => LooksSameList see xs ys
  | .obj xs, .obj ys => LooksSameKvs see xs ys
  | v, w => v = w
def LooksSameList (see : String → Option (Json → Json)) : List Json → List Json → Prop
  | [], [] => True
  | x :: xs, y :: ys => LooksSame see x y ∧ LooksSameList see xs ys
  | _, _ => False
def LooksSameKvs (see : String → Option (Json → Json)) : List (String × Json) → List (String × Json) → Prop
  | [], [] => True
  | (k, x) :: xs, (l, y) :: ys =>
    (k = l ∧
      ((Blank x ∨ Blank y) ∧ x = y ∨
       ¬ Blank x ∧ ¬ Blank y ∧
        ((∃ f, see k = some f ∧ f x = f y) ∨ (see k = none ∧ LooksSame see x y)))) ∧
    LooksSameKvs see xs ys
  | _, _ => False
end

/-! ## What must be hidden -/

/-- How much of a value may be shown. -/
inductive Hide where
  /-- nothing of a non-empty text or number may be shown -/
  | all
  /-- the first nine characters of an identifier must be hidden -/
  | nine
  /-- the device's half of a MAC address must be hidden -/
  | mac
  /-- every letter and digit must be hidden -/
  | word
  deriving DecidableEq, Repr

/-- Sensitive keys in answers of legacy devices. -/
def iotHide : List (String × Hide) :=
  [("latitude", .all), ("longitude", .all), ("latitude_i", .all), ("longitude_i", .all), ("alias", .all), ("ssid", .all),
   ("username", .all), ("deviceId", .nine), ("oemId", .nine), ("hwId", .nine), ("mac", .mac), ("mic_mac", .mac)]

/-- Sensitive keys in answers of SMART devices. -/
def smartHide : List (String × Hide) :=
  [("latitude", .all), ("longitude", .all), ("la", .all), ("lo", .all), ("nickname", .all), ("ssid", .all),
   ("bssid", .all), ("channel", .all), ("device_name", .all), ("device_alias", .all), ("alias", .all),
   ("board_sn", .all), ("custom_sn", .all), ("location", .all), ("map_data", .all), ("map_name", .all), ("cd", .all),
   ("device_id", .nine), ("parent_device_id", .nine), ("original_device_id", .nine), ("oem_id", .nine),
   ("hw_id", .nine), ("fw_id", .nine), ("dev_id", .nine), ("ext_addr", .nine), ("mac", .mac),
   ("setup_code", .word), ("setup_payload", .word), ("mfi_setup_code", .word), ("mfi_setup_id", .word),
   ("mfi_token_token", .word), ("mfi_token_uuid", .word)]

/-- Sensitive keys in discovery answers. -/
def discoveryHide : List (String × Hide) :=
  [("device_name", .all), ("group_name", .all), ("device_id", .nine), ("owner", .nine), ("master_device_id", .nine),
   ("group_id", .nine), ("mac", .mac)]

/-- Sensitive keys in the decrypted part of discovery answers. -/
def decryptedHide : List (String × Hide) := [("connect_ssid", .all), ("device_id", .nine), ("owner", .nine)]

/-- The two texts differ only in what must be hidden. -/
def DifferHidden : Hide → String → String → Prop
  | .all, _, _ => True
  | .nine, a, b => a.toList.drop 9 = b.toList.drop 9
  | .mac, a, b =>
    (a.toList.length = 12 ∧ b.toList.length = 12 ∧ a.toList.take 6 = b.toList.take 6) ∨
    (a.toList.length = 17 ∧ b.toList.length = 17 ∧ a.toList.take 8 = b.toList.take 8 ∧
      (':' ∈ a.toList ↔ ':' ∈ b.toList))
  | .word, a, b => a.toList.map Char.isAlphanum = b.toList.map Char.isAlphanum ∧
      (a.toList.filter fun c => !c.isAlphanum) = (b.toList.filter fun c => !c.isAlphanum)

end Kasa.RedactSpec
