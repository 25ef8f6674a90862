import Verif.Py.Json
/-!
# What kind of legacy device a system information record describes

A record is described by the four facts that matter; the kinds are tried in the documented order.
-/

namespace Kasa.SysInfoSpec

/-- The text contains the part. -/
def Contains (whole part : String) : Prop := ∃ before after, whole.toList = before ++ part.toList ++ after

/-- What matters in a record: the type, the device name if there is one, and whether it has children or a length. -/
structure Record where
  type : String
  name : Option String
  children : Bool
  length : Bool

/-- The record's kind.  `lower` folds case. -/
inductive Kind (lower : String → String) (r : Record) : String → Prop where
  | dimmer (n) : r.name = some n → Contains n "Dimmer" → Kind lower r "dimmer"
  | strip : (∀ n, r.name = some n → ¬ Contains n "Dimmer") → Contains (lower r.type) "smartplug" →
      r.children = true → Kind lower r "strip"
  | wallSwitch (n) : r.name = some n → ¬ Contains n "Dimmer" → Contains (lower r.type) "smartplug" →
      r.children = false → n ≠ "" → Contains (lower n) "light" → Kind lower r "wallswitch"
  | plug : (∀ n, r.name = some n → ¬ Contains n "Dimmer") → Contains (lower r.type) "smartplug" →
      r.children = false → (∀ n, r.name = some n → n ≠ "" → ¬ Contains (lower n) "light") → Kind lower r "plug"
  | lightStrip : (∀ n, r.name = some n → ¬ Contains n "Dimmer") → ¬ Contains (lower r.type) "smartplug" →
      Contains (lower r.type) "smartbulb" → r.length = true → Kind lower r "lightstrip"
  | bulb : (∀ n, r.name = some n → ¬ Contains n "Dimmer") → ¬ Contains (lower r.type) "smartplug" →
      Contains (lower r.type) "smartbulb" → r.length = false → Kind lower r "bulb"
  | other : (∀ n, r.name = some n → ¬ Contains n "Dimmer") → ¬ Contains (lower r.type) "smartplug" →
      ¬ Contains (lower r.type) "smartbulb" → Kind lower r "plug"

end Kasa.SysInfoSpec
