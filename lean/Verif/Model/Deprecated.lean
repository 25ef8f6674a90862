import Verif.Py.Monad
import Verif.Py.Dict
import Verif.Model.SysInfo
/-!
# Deprecated names (device.py, interfaces/light.py, interfaces/energy.py, kasa/__init__.py)

An object is given by what the normal lookup of an attribute finds: nothing, a value, or an exception that a property raises.  `dir()` is
taken to list exactly the names for which something is found.  A computation keeps the list of warnings issued; a warning filter that turns
warnings into exceptions is left out, as is the `device_type` property raising (it does not).  A module belongs to the device that lists it.
-/

namespace Kasa.Deprecated
open PyM SysInfo

/-- What a lookup may give: a truth value, a colour temperature range, or whatever an attribute holds. -/
inductive Value (V : Type) where
  | bool (b : Bool)
  | range (lo hi : V)
  | own (v : V)
  deriving DecidableEq

/-- A feature: the outcomes of its `minimum_value` and `maximum_value` (feature.py:212-229). -/
structure Feature (V : Type) where
  minimum : Except Exc V
  maximum : Except Exc V

/-- The classes of modules that resolve deprecated names. -/
inductive Kind where
  | light | energy | other
  deriving DecidableEq

/-- A module: its class, its attributes and what `get_feature` gives (module.py:200-202). -/
structure ModObj (V : Type) where
  kind : Kind
  attr : String → Option (Except Exc V)
  feature : String → Except Exc (Option (Feature V))

/-- A device: its attributes, its type and its modules (for a legacy device that has not been updated: an exception or `None`). -/
structure Dev (V : Type) where
  attr : String → Option (Except Exc V)
  deviceType : DeviceType
  modules : Except Exc (Option (Dict String (ModObj V)))

abbrev attributeError : Exc := .other "AttributeError"

abbrev W := List String

/-- `warn(msg, DeprecationWarning)`. -/
def warn (msg : String) : PyM W Unit := fun w => (.ok (), w ++ [msg])

section
variable {V : Type}

/-- Python calls `__getattr__` if the normal lookup finds nothing or raises `AttributeError`. -/
def lookup (found : Option (Except Exc V)) (getattr : PyM W (Value V)) : PyM W (Value V) :=
  match found with
  | some (.ok v) => pure (.own v)
  | some (.error e) => if e = attributeError then getattr else raise e
  | none => getattr

/-! ## Modules -/

/-- `Light._deprecated_valid_temperature_range` (interfaces/light.py:175-178). -/
def lightRange (m : ModObj V) : Except Exc (Value V) := do
  match (← m.feature "color_temp") with
  | none => .error .kasa
  | some f => pure (.range (← f.minimum) (← f.maximum))

/-- `name in device.modules`. -/
def inModules (d : Dev V) (name : String) : Except Exc Bool :=
  match d.modules with
  | .ok (some ms) => .ok (Dict.get? ms name).isSome
  | .ok none => .error (.other "TypeError")
  | .error e => .error e

/-- `has_feature` (module.py:196-198). -/
def hasFeature (m : ModObj V) (a : String) : Except Exc (Value V) := (m.feature a).map fun f => .bool f.isSome

/-- `Light._deprecated_attributes` (interfaces/light.py:180-186). -/
def lightNames : List (String × String) := [("is_color", "hsv"), ("is_dimmable", "brightness"), ("is_variable_color_temp", "color_temp")]

/-- `Light.__getattr__` (interfaces/light.py:190-214). -/
def lightGetattr (d : Dev V) (m : ModObj V) (name : String) : PyM W (Value V) :=
  if name = "valid_temperature_range" then do
    warn "valid_temperature_range is deprecated, use get_feature(\"color_temp\") minimum_value  and maximum_value instead"
    lift (lightRange m)
  else if name = "has_effects" then do
    warn "has_effects is deprecated, check `Module.LightEffect in device.modules` instead"
    lift ((inModules d "LightEffect").map .bool)
  else
    match Dict.get? lightNames name with
    | some a => do
      warn (name ++ " is deprecated, use has_feature(\"" ++ a ++ "\") instead")
      lift (hasFeature m a)
    | none => raise attributeError

/-- `Energy._deprecated_attributes` (interfaces/energy.py:177-185). -/
def energyNames : List (String × String) :=
  [("emeter_today", "consumption_today"), ("emeter_this_month", "consumption_this_month"), ("realtime", "status"),
   ("get_realtime", "get_status"), ("erase_emeter_stats", "erase_stats"), ("get_daystat", "get_daily_stats"),
   ("get_monthstat", "get_monthly_stats")]

/-- `getattr` on a module: the normal lookup, then `Light.__getattr__` or `Energy.__getattr__` (interfaces/light.py:190-214,
interfaces/energy.py:189-194).  The number bounds the recursion, like Python's recursion limit. -/
def modGetattr (d : Dev V) : Nat → ModObj V → String → PyM W (Value V)
  | 0, _, _ => raise (.other "RecursionError")
  | n + 1, m, name =>
    lookup (m.attr name)
      (match m.kind with
      | .light => lightGetattr d m name
      | .energy =>
        match Dict.get? energyNames name with
        | some a => do
          warn (name ++ " is deprecated, use " ++ a ++ " instead")
          modGetattr d n m a
        | none => raise attributeError
      | .other => raise attributeError)

/-! ## Devices -/

/-- `_deprecated_device_type_attributes` (device.py:512-521). -/
def typeNames : List (String × DeviceType) :=
  [("is_bulb", .bulb), ("is_dimmer", .dimmer), ("is_light_strip", .lightStrip), ("is_plug", .plug), ("is_wallswitch", .wallSwitch),
   ("is_strip", .strip), ("is_strip_socket", .stripSocket)]

/-- `self.modules` where an attribute of it is used: `None` has none. -/
def modules (d : Dev V) : Except Exc (Dict String (ModObj V)) :=
  match d.modules with
  | .ok (some ms) => .ok ms
  | .ok none => .error attributeError
  | .error e => .error e

/-- `_get_replacing_attr` (device.py:523-538). -/
def replacing (d : Dev V) (module : Option String) (attrs : List String) : Except Exc (Option String) :=
  match module with
  | none => .ok (attrs.find? fun a => (d.attr a).isSome)
  | some n => do
    match Dict.get? (← modules d) n with
    | none => pure none
    | some m => pure (attrs.find? fun a => (m.attr a).isSome)

/-- The messages of `_get_deprecated_callable_attribute` (device.py:541-567). -/
def callables : List (String × String) :=
  [("is_dimmable", "light_module.has_feature(\"brightness\")"), ("is_color", "light_module.has_feature(\"hsv\")"),
   ("is_variable_color_temp", "light_module.has_feature(\"color_temp\")"),
   ("valid_temperature_range", "minimum and maximum value of get_feature(\"color_temp\")"),
   ("has_effects", "Module.LightEffect in device.modules")]

/-- The functions of `_get_deprecated_callable_attribute` (device.py:541-567).  Only lights have `_deprecated_valid_temperature_range`. -/
def call (d : Dev V) (m : ModObj V) (name : String) : Except Exc (Value V) :=
  if name = "is_dimmable" then hasFeature m "brightness"
  else if name = "is_color" then hasFeature m "hsv"
  else if name = "is_variable_color_temp" then hasFeature m "color_temp"
  else if name = "valid_temperature_range" then
    match m.kind with
    | .light => lightRange m
    | _ => .error attributeError
  else (inModules d "LightEffect").map .bool

/-- `_get_deprecated_callable_attribute` (device.py:540-576). -/
def callable (d : Dev V) (name : String) : PyM W (Option (Value V)) :=
  match Dict.get? callables name with
  | none => pure none
  | some msg => do
    warn (name ++ " is deprecated, use: " ++ msg ++ " instead")
    let ms ← lift (modules d)
    match Dict.get? ms "Light" with
    | none => raise attributeError
    | some m => do
      let v ← lift (call d m name)
      pure (some v)

/-- `_deprecated_other_attributes` (device.py:578-612). -/
def others : List (String × Option String × List String) :=
  [("brightness", some "Light", ["brightness"]), ("set_brightness", some "Light", ["set_brightness"]), ("hsv", some "Light", ["hsv"]),
   ("set_hsv", some "Light", ["set_hsv"]), ("color_temp", some "Light", ["color_temp"]), ("set_color_temp", some "Light", ["set_color_temp"]),
   ("_deprecated_set_light_state", some "Light", ["has_effects"]),
   ("led", some "Led", ["led"]), ("set_led", some "Led", ["set_led"]),
   ("effect", some "LightEffect", ["_deprecated_effect", "effect"]),
   ("effect_list", some "LightEffect", ["_deprecated_effect_list", "effect_list"]),
   ("set_effect", some "LightEffect", ["set_effect"]), ("set_custom_effect", some "LightEffect", ["set_custom_effect"]),
   ("presets", some "LightPreset", ["_deprecated_presets", "preset_states_list"]), ("save_preset", some "LightPreset", ["_deprecated_save_preset"]),
   ("get_emeter_realtime", some "Energy", ["get_status"]), ("emeter_realtime", some "Energy", ["status"]),
   ("emeter_today", some "Energy", ["consumption_today"]), ("emeter_this_month", some "Energy", ["consumption_this_month"]),
   ("current_consumption", some "Energy", ["current_consumption"]), ("get_emeter_daily", some "Energy", ["get_daily_stats"]),
   ("get_emeter_monthly", some "Energy", ["get_monthly_stats"]),
   ("supported_modules", none, ["modules"])]

/-- `getattr` on a device: the normal lookup, then `Device.__getattr__` (device.py:616-638).  The number bounds the recursion. -/
def devGetattr (d : Dev V) : Nat → String → PyM W (Value V)
  | 0, _ => raise (.other "RecursionError")
  | n + 1, name =>
    lookup (d.attr name)
      (match Dict.get? typeNames name with
      | some t => do
        warn (name ++ " is deprecated, use device_type property instead")
        pure (.bool (decide (d.deviceType = t)))
      | none => do
        match (← callable d name) with
        | some v => pure v
        | none =>
          match Dict.get? others name with
          | none => raise attributeError
          | some (module, attrs) => do
            match (← lift (replacing d module attrs)), module with
            | none, _ => raise attributeError
            | some a, some mod => do
              let ms ← lift (modules d)
              match Dict.get? ms mod with
              | none => raise (.other "KeyError")
              | some m => do
                warn (name ++ " is deprecated, use: Module." ++ mod ++ " in device.modules instead")
                modGetattr d n m a
            | some a, none => do
              warn (name ++ " is deprecated, use: " ++ a ++ " instead")
              devGetattr d n a)

end

/-! ## The package -/

/-- `deprecated_smart_devices` (kasa/__init__.py:87-95): the names and packages of the classes. -/
def packageDevices : List (String × String × String) :=
  [("SmartDevice", "IotDevice", "kasa.iot"), ("SmartPlug", "IotPlug", "kasa.iot"), ("SmartBulb", "IotBulb", "kasa.iot"),
   ("SmartLightStrip", "IotLightStrip", "kasa.iot"), ("SmartStrip", "IotStrip", "kasa.iot"), ("SmartDimmer", "IotDimmer", "kasa.iot"),
   ("SmartBulbPreset", "IotLightPreset", "kasa.iot.modules")]

/-- `deprecated_classes` (kasa/__init__.py:96-104): the names of the classes. -/
def packageClasses : List (String × String) :=
  [("SmartDeviceException", "KasaException"), ("UnsupportedDeviceException", "UnsupportedDeviceError"),
   ("AuthenticationException", "AuthenticationError"), ("TimeoutException", "TimeoutError"), ("ConnectionType", "DeviceConnectionParameters"),
   ("EncryptType", "DeviceEncryptionType"), ("DeviceFamilyType", "DeviceFamily")]

/-- `kasa.__getattr__` (kasa/__init__.py:108-128): the name of the class. -/
def packageGetattr (name : String) : PyM W String :=
  if name = "TPLinkSmartHomeProtocol" then do
    warn (name ++ " is deprecated")
    pure "_deprecated_TPLinkSmartHomeProtocol"
  else
    match Dict.get? packageDevices name with
    | some (cls, package) => do
      warn (name ++ " is deprecated, use " ++ cls ++ " from package " ++ package ++ " instead or use Discover.discover_single()" ++
        " and Device.connect() to support new protocols")
      pure cls
    | none =>
      match Dict.get? packageClasses name with
      | some cls => do
        warn (name ++ " is deprecated, use " ++ cls ++ " instead")
        pure cls
      | none => raise attributeError

end Kasa.Deprecated
