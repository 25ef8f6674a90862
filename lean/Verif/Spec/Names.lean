import Verif.Model.Names
/-!
# Specification: texts in base64, networks in a list
-/

namespace Kasa.NamesSpec

/-- A text that decodes to the UTF-8 bytes of a string. -/
def Means (x : Json) (s : String) : Prop :=
  ∃ t : String, x = .str t ∧ (∀ c ∈ t.toList, c.toNat < 128) ∧ B64.decode t.toList = some (utf8 s)

/-- The same in the strict form of RFC 4648: only the alphabet and padding, in groups of four. -/
def Encodes (x : Json) (s : String) : Prop :=
  ∃ t : String, x = .str t ∧ t.toList.length % 4 = 0 ∧ (∀ c ∈ t.toList, c = '=' ∨ c ∈ B64.alphabet) ∧
    B64.decode t.toList = some (utf8 s)

/-- An entry of the list a SMART device reports, and the network it is about. -/
def Describes (entry : Json) (n : Names.Network) : Prop :=
  (∃ x, entry.get? "ssid" = some x ∧ Means x n.ssid) ∧ entry.get? "cipher_type" = some n.cipherType ∧
    entry.get? "key_type" = some n.keyType ∧ entry.get? "channel" = some n.channel ∧
    entry.get? "signal_level" = some n.signalLevel ∧ entry.get? "bssid" = some n.bssid

/-- Two lists correspond position by position. -/
def Pairwise {α β : Type} (r : α → β → Prop) (xs : List α) (ys : List β) : Prop :=
  xs.length = ys.length ∧ ∀ (i : Nat) (x : α) (y : β), xs[i]? = some x → ys[i]? = some y → r x y

end Kasa.NamesSpec
