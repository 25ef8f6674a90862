import Verif.Py.Num
/-!
# What a vacuum uses up (smart/modules/consumables.py)

Times are in minutes.
-/

namespace Kasa.Consumables

/-- `_ConsumableMeta` (smart/modules/consumables.py:16-27), without the display name. -/
structure Meta where
  id : String
  dataKey : String
  lifetime : Int
  deriving DecidableEq

/-- `CONSUMABLE_METAS` (smart/modules/consumables.py:48-80). -/
def metas : List Meta :=
  [⟨"main_brush", "roll_brush_time", 400 * 60⟩, ⟨"side_brush", "edge_brush_time", 200 * 60⟩, ⟨"filter", "filter_time", 200 * 60⟩,
    ⟨"sensor", "sensor_time", 30 * 60⟩, ⟨"charging_contacts", "charge_contact_time", 30 * 60⟩]

/-- `Consumable` (smart/modules/consumables.py:30-45). -/
structure Consumable where
  info : Meta
  used : Int
  remaining : Int
  deriving DecidableEq

/-- The answer of a vacuum: minutes by key. -/
abbrev Data := List (String × Int)

def consumable (m : Meta) (used : Int) : Consumable := ⟨m, used, m.lifetime - used⟩

/-- The loop that creates them (smart/modules/consumables.py:140-152). -/
def create (data : Data) : List Meta → List (String × Consumable)
  | [] => []
  | m :: rest =>
    match Dict.get? data m.dataKey with
    | some used => (m.id, consumable m used) :: create data rest
    | none => create data rest

/-- The loop that updates them (smart/modules/consumables.py:154-156); those before a missing key have been changed already. -/
def refresh (data : Data) : List (String × Consumable) → Except Exc Unit × List (String × Consumable)
  | [] => (.ok (), [])
  | (i, c) :: rest =>
    match Dict.get? data c.info.dataKey with
    | none => (.error (.other "KeyError"), (i, c) :: rest)
    | some used =>
      let r := refresh data rest
      (r.1, (i, consumable c.info used) :: r.2)

/-- `_post_update_hook` (smart/modules/consumables.py:137-156).  `_consumables` belongs to the class: all vacuums have the same. -/
def update (shared : List (String × Consumable)) (data : Data) : Except Exc Unit × List (String × Consumable) :=
  if shared.isEmpty then (.ok (), create data metas) else refresh data shared

/-- `str.removesuffix("_time")`. -/
def removeSuffix (s : String) : String :=
  if "_time".toList.isSuffixOf s.toList then String.ofList (s.toList.take (s.toList.length - 5)) else s

/-- `reset_consumable` (smart/modules/consumables.py:158-165). -/
def reset (shared : List (String × Consumable)) (id : String) : Except Exc Command :=
  match Dict.get? shared id with
  | some c => .ok ⟨"", "resetConsumablesTime", [("reset_list", .arr [.str (removeSuffix c.info.dataKey)])]⟩
  | none => .error (.other "KeyError")

/-- Updates of any vacuums, one after the other, each with what it answered; an update that fails is reported to the caller and
leaves what it changed. -/
def run (shared : List (String × Consumable)) : List Data → List (String × Consumable)
  | [] => shared
  | d :: rest => run (update shared d).2 rest

end Kasa.Consumables
