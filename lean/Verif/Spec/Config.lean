import Verif.Py.Json
/-!
# Serialised configurations
-/

namespace Kasa.ConfigSpec

/-- No value anywhere inside is null. -/
inductive NoNull : Json → Prop where
  | bool (b) : NoNull (.bool b)
  | num (n) : NoNull (.num n)
  | str (s) : NoNull (.str s)
  | obj (kvs) : (∀ kv ∈ kvs, NoNull kv.2) → NoNull (.obj kvs)

/-- What `d` holds under `k` (nothing if `d` is not a dict or has no such key). -/
def look (d : Json) (k : String) : Option Json :=
  match d with
  | .obj kvs => Dict.get? kvs k
  | _ => none

/-- The documented serialised fields of a configuration. -/
def fields : List String :=
  ["host", "timeout", "port_override", "credentials", "credentials_hash", "batch_size", "connection_type", "aes_keys"]

end Kasa.ConfigSpec
