import Verif.Model.Deprecated
/-!
# Specification: what to use instead of a deprecated name
-/

namespace Kasa.DeprecatedSpec
open Deprecated SysInfo

/-- What a deprecated name of a device stands for. -/
inductive Instead where
  /-- Whether the device is of this type. -/
  | type (t : DeviceType)
  /-- Whether its light has this feature. -/
  | feature (a : String)
  /-- The limits of the colour temperature of its light. -/
  | range
  /-- Whether it has a module for light effects. -/
  | effects
  /-- The first of these attributes that the module has. -/
  | module (name : String) (attrs : List String)
  /-- Another attribute of the device. -/
  | own (a : String)
  deriving DecidableEq

/-- The deprecated names of devices. -/
def insteadOf : List (String × Instead) :=
  [("is_bulb", .type .bulb), ("is_plug", .type .plug), ("is_strip", .type .strip), ("is_strip_socket", .type .stripSocket),
   ("is_dimmer", .type .dimmer), ("is_light_strip", .type .lightStrip), ("is_wallswitch", .type .wallSwitch),
   ("is_dimmable", .feature "brightness"), ("is_color", .feature "hsv"), ("is_variable_color_temp", .feature "color_temp"),
   ("valid_temperature_range", .range), ("has_effects", .effects),
   ("brightness", .module "Light" ["brightness"]), ("set_brightness", .module "Light" ["set_brightness"]),
   ("hsv", .module "Light" ["hsv"]), ("set_hsv", .module "Light" ["set_hsv"]),
   ("color_temp", .module "Light" ["color_temp"]), ("set_color_temp", .module "Light" ["set_color_temp"]),
   ("led", .module "Led" ["led"]), ("set_led", .module "Led" ["set_led"]),
   ("effect", .module "LightEffect" ["_deprecated_effect", "effect"]), ("set_effect", .module "LightEffect" ["set_effect"]),
   ("effect_list", .module "LightEffect" ["_deprecated_effect_list", "effect_list"]),
   ("set_custom_effect", .module "LightEffect" ["set_custom_effect"]),
   ("presets", .module "LightPreset" ["_deprecated_presets", "preset_states_list"]), ("save_preset", .module "LightPreset" ["_deprecated_save_preset"]),
   ("emeter_realtime", .module "Energy" ["status"]), ("get_emeter_realtime", .module "Energy" ["get_status"]),
   ("emeter_today", .module "Energy" ["consumption_today"]), ("emeter_this_month", .module "Energy" ["consumption_this_month"]),
   ("current_consumption", .module "Energy" ["current_consumption"]),
   ("get_emeter_daily", .module "Energy" ["get_daily_stats"]), ("get_emeter_monthly", .module "Energy" ["get_monthly_stats"]),
   ("supported_modules", .own "modules")]

/-- The deprecated names of energy modules, and the new ones. -/
def energyInstead : List (String × String) :=
  [("realtime", "status"), ("get_realtime", "get_status"), ("emeter_today", "consumption_today"), ("emeter_this_month", "consumption_this_month"),
   ("get_daystat", "get_daily_stats"), ("get_monthstat", "get_monthly_stats"), ("erase_emeter_stats", "erase_stats")]

/-- The deprecated names of lights that tell whether there is a feature. -/
def lightInstead : List (String × String) := [("is_dimmable", "brightness"), ("is_color", "hsv"), ("is_variable_color_temp", "color_temp")]

/-- The deprecated names of the package and the classes that took their place. -/
def packageInstead : List (String × String) :=
  [("SmartDevice", "IotDevice"), ("SmartPlug", "IotPlug"), ("SmartBulb", "IotBulb"), ("SmartLightStrip", "IotLightStrip"),
   ("SmartStrip", "IotStrip"), ("SmartDimmer", "IotDimmer"), ("SmartBulbPreset", "IotLightPreset"),
   ("SmartDeviceException", "KasaException"), ("UnsupportedDeviceException", "UnsupportedDeviceError"),
   ("AuthenticationException", "AuthenticationError"), ("TimeoutException", "TimeoutError"),
   ("ConnectionType", "DeviceConnectionParameters"), ("EncryptType", "DeviceEncryptionType"), ("DeviceFamilyType", "DeviceFamily")]

section
variable {V : Type}

/-- The limits of a feature. -/
def limits : Except Exc (Option (Feature V)) → Except Exc (Value V)
  | .error e => .error e
  | .ok none => .error .kasa
  | .ok (some ⟨.error e, _⟩) => .error e
  | .ok (some ⟨.ok _, .error e⟩) => .error e
  | .ok (some ⟨.ok lo, .ok hi⟩) => .ok (.range lo hi)

/-- What the replacement gives on a device with these modules; `none` if it is not there. -/
def gives (d : Dev V) (ms : Dict String (ModObj V)) : Instead → Option (Except Exc (Value V))
  | .type t => some (.ok (.bool (decide (d.deviceType = t))))
  | .feature a => (Dict.get? ms "Light").map fun l => (l.feature a).map fun f => .bool f.isSome
  | .range => (Dict.get? ms "Light").map fun l => limits (l.feature "color_temp")
  | .effects => (Dict.get? ms "Light").map fun _ => .ok (.bool (Dict.get? ms "LightEffect").isSome)
  | .module n attrs => (Dict.get? ms n).bind fun m => (attrs.findSome? m.attr).map fun o => o.map .own
  | .own a => (d.attr a).map fun o => o.map .own

/-- The lights are lights. -/
def Sorted (ms : Dict String (ModObj V)) : Prop := ∀ l, Dict.get? ms "Light" = some l → l.kind = .light

/-- One warning was added, and it is about this name. -/
def Warned (name : String) (before after : List String) : Prop := ∃ text, after = before ++ [name ++ " is deprecated, " ++ text]

end
end Kasa.DeprecatedSpec
