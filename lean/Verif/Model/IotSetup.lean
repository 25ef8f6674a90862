import Verif.Model.IotDevice
/-!
# The modules of legacy devices, and what they ask for (iot/iotdevice.py, iotplug.py, iotdimmer.py, iotbulb.py, iotlightstrip.py,
iotstrip.py, iotcamera.py, iot/modules/*.py)
-/

namespace Kasa.IotSetup

open Ops SysInfo Iot

/-- The classes of legacy devices.  `socket` is a socket of a strip, with its id. -/
inductive Kind
  | plug | wallSwitch | dimmer | bulb | lightStrip | strip | camera
  | socket (id : String)
  deriving DecidableEq

/-! ## Queries -/

/-- `_create_request` as modules call it (iotdevice.py:224-237, iotstrip.py:392-403): a socket names itself, and leaves missing
arguments as nothing. -/
def request (kind : Kind) (target cmd : String) (arg : Option Json) : Json :=
  match kind with
  | .socket id => .obj [("context", .obj [("child_ids", .arr [.str id])]), (target, .obj [(cmd, arg.getD .null)])]
  | _ => createRequest target cmd arg none

/-- `merge` of one more request. -/
def mergeOne (q : List (String × Json)) : Json → List (String × Json)
  | .obj r =>
    match mergeKvs q r with
    | .ok q' => q'
    | .error _ => []
  | _ => []

/-- The query of a module that asks for these commands: the requests of `query_for_command` merged one after another
(iotmodule.py:17-24, 37-39).  Simplified: where merging raises the query is empty. -/
def queryOf (kind : Kind) (target : String) (cmds : List (String × Option Json)) : List (String × Json) :=
  (cmds.map (fun c => request kind target c.1 c.2)).foldl mergeOne []

/-! ## Modules -/

/-- `RuleModule` (iot/modules/rulemodule.py:61-64): schedules, countdowns and the absence mode. -/
def ruleMod (kind : Kind) (target : String) : Mod :=
  ⟨target, 256, queryOf kind target [("get_rules", none), ("get_next_action", none)], none⟩

/-- `Usage` and `Emeter` (iot/modules/usage.py:13-30, emeter.py:12); `now` is the year and month of `datetime.now()`
when the query is made, anew for each update. -/
def usageMod (kind : Kind) (now : Int × Int) (target : String) : Mod :=
  ⟨target, 2048, queryOf kind target [("get_realtime", none), ("get_daystat", some (.obj [("year", .num now.1), ("month", .num now.2)])),
    ("get_monthstat", some (.obj [("year", .num now.1)]))], none⟩

/-- `Time` (iot/modules/time.py:18-23). -/
def timeMod (kind : Kind) (target : String) : Mod := ⟨target, 256, queryOf kind target [("get_time", none), ("get_timezone", none)], none⟩

/-- `Cloud` (iot/modules/cloud.py:52-54). -/
def cloudMod (kind : Kind) (target : String) : Mod := ⟨target, 256, queryOf kind target [("get_info", none)], none⟩

/-- `Motion` (iot/modules/motion.py:252-259). -/
def motionMod (kind : Kind) (target : String) : Mod := ⟨target, 256, queryOf kind target [("get_config", none), ("get_adc_value", none)], none⟩

/-- `AmbientLight` (iot/modules/ambientlight.py:43-50). -/
def ambientMod (kind : Kind) (target : String) : Mod :=
  ⟨target, 256, queryOf kind target [("get_config", none), ("get_current_brt", none)], none⟩

/-- `Dimmer` (iot/modules/dimmer.py:146-153). -/
def dimmerMod (kind : Kind) (target : String) : Mod :=
  ⟨target, 256, queryOf kind target [("get_dimmer_parameters", none), ("get_default_behavior", none)], none⟩

/-- `Led` (iot/modules/led.py:12-14, 34-37). -/
def ledMod (target : String) : Mod := ⟨target, 256, [], some "led_off"⟩

/-- `Light`, `LightPreset`, `LightEffect` and `StripEmeter`, which ask for nothing (iot/modules/light.py:80-83,
iot/modules/lightpreset.py:144-146, iot/modules/lighteffect.py:98-100, iotstrip.py:199-201). -/
def quietMod (target : String) : Mod := ⟨target, 256, [], none⟩

/-! ## Setting up -/

/-- The modules of a device by name, `_modules`. -/
abbrev Mods := List (String × Mod)

/-- `add_module` (iotdevice.py:215-222). -/
def add (name : String) (m : Mod) (ms : Mods) : Mods := if Dict.has ms name then ms else Dict.set ms name m

/-- `emeter_type` (iotdevice.py:183, iotbulb.py:202, iotstrip.py:99). -/
def emeterType : Kind → String
  | .bulb | .lightStrip => "smartlife.iot.common.emeter"
  | _ => "emeter"

/-- `LIGHT_SERVICE` (iotbulb.py:200, iotlightstrip.py:47). -/
def lightService : Kind → String
  | .lightStrip => "smartlife.iot.lightStrip"
  | _ => "smartlife.iot.smartbulb.lightingservice"

/-- `has_emeter` (iotdevice.py:291-295, iotbulb.py:516-520); `ene` is whether the device reported `ENE`. -/
def hasEmeter (kind : Kind) (ene : Bool) : Bool :=
  match kind with
  | .bulb | .lightStrip => true
  | _ => ene

/-- `IotDevice._initialize_modules` (iotdevice.py:331-337). -/
def deviceMods (kind : Kind) (ene : Bool) (now : Int × Int) (ms : Mods) : Mods :=
  if hasEmeter kind ene then add "Energy" (usageMod kind now (emeterType kind)) ms else ms

/-- `IotPlug._initialize_modules` (iotplug.py:58-66). -/
def plugMods (kind : Kind) (ene : Bool) (now : Int × Int) (ms : Mods) : Mods :=
  let ms := deviceMods kind ene now ms
  let ms := add "schedule" (ruleMod kind "schedule") ms
  let ms := add "usage" (usageMod kind now "schedule") ms
  let ms := add "anti_theft" (ruleMod kind "anti_theft") ms
  let ms := add "Time" (timeMod kind "time") ms
  let ms := add "cloud" (cloudMod kind "cnCloud") ms
  add "Led" (ledMod "system") ms

/-- The modules of motion sensors (iotplug.py:101-104, iotdimmer.py:88-89). -/
def pirMods (kind : Kind) (ms : Mods) : Mods :=
  let ms := add "motion" (motionMod kind "smartlife.iot.PIR") ms
  add "ambient" (ambientMod kind "smartlife.iot.LAS") ms

/-- `IotDimmer._initialize_modules` (iotdimmer.py:83-91). -/
def dimmerMods (kind : Kind) (ene : Bool) (now : Int × Int) (ms : Mods) : Mods :=
  let ms := plugMods kind ene now ms
  let ms := pirMods kind ms
  let ms := add "dimmer" (dimmerMod kind "smartlife.iot.dimmer") ms
  add "Light" (quietMod "light") ms

/-- `IotBulb._initialize_modules` (iotbulb.py:214-229). -/
def bulbMods (kind : Kind) (ene : Bool) (now : Int × Int) (ms : Mods) : Mods :=
  let ms := deviceMods kind ene now ms
  let ms := add "schedule" (ruleMod kind "smartlife.iot.common.schedule") ms
  let ms := add "usage" (usageMod kind now "smartlife.iot.common.schedule") ms
  let ms := add "anti_theft" (ruleMod kind "smartlife.iot.common.anti_theft") ms
  let ms := add "Time" (timeMod kind "smartlife.iot.common.timesetting") ms
  let ms := add "Energy" (usageMod kind now (emeterType kind)) ms
  let ms := add "countdown" (ruleMod kind "countdown") ms
  let ms := add "cloud" (cloudMod kind "smartlife.iot.common.cloud") ms
  let ms := add "Light" (quietMod (lightService kind)) ms
  add "LightPreset" (quietMod (lightService kind)) ms

/-- `IotLightStrip._initialize_modules` (iotlightstrip.py:60-66). -/
def lightStripMods (kind : Kind) (ene : Bool) (now : Int × Int) (ms : Mods) : Mods :=
  add "LightEffect" (quietMod "smartlife.iot.lighting_effect") (bulbMods kind ene now ms)

/-- `IotStrip._initialize_modules` (iotstrip.py:102-116). -/
def stripMods (kind : Kind) (ene : Bool) (now : Int × Int) (ms : Mods) : Mods :=
  let ms := add "anti_theft" (ruleMod kind "anti_theft") ms
  let ms := add "schedule" (ruleMod kind "schedule") ms
  let ms := add "usage" (usageMod kind now "schedule") ms
  let ms := add "Time" (timeMod kind "time") ms
  let ms := add "countdown" (ruleMod kind "countdown") ms
  let ms := add "Led" (ledMod "system") ms
  let ms := add "cloud" (cloudMod kind "cnCloud") ms
  if hasEmeter kind ene then add "Energy" (quietMod (emeterType kind)) ms else ms

/-- `IotStripPlug._initialize_modules` (iotstrip.py:333-340). -/
def socketMods (kind : Kind) (ene : Bool) (now : Int × Int) (ms : Mods) : Mods :=
  let ms := if hasEmeter kind ene then add "Energy" (usageMod kind now (emeterType kind)) ms else ms
  let ms := add "usage" (usageMod kind now "schedule") ms
  let ms := add "anti_theft" (ruleMod kind "anti_theft") ms
  let ms := add "schedule" (ruleMod kind "schedule") ms
  add "countdown" (ruleMod kind "countdown") ms

/-- `(dev_name := self.sys_info["dev_name"]) and "PIR" in dev_name` (iotplug.py:100).  Simplified: what is neither text nor empty
raises `TypeError`. -/
def hasPir (devName : Option Json) : Except Exc Bool :=
  match devName with
  | none => .error (.other "KeyError")
  | some (.str s) => .ok (hasText "PIR" s)
  | some v => if v.truthy then .error (.other "TypeError") else .ok false

/-- `_initialize_modules` of a device: the modules it has afterwards, and whether it raised.  Only wall switches can raise, after
the modules of plugs were added (iotplug.py:97-104). -/
def setup (kind : Kind) (ene : Bool) (devName : Option Json) (now : Int × Int) (ms : Mods) : Mods × Except Exc Unit :=
  match kind with
  | .plug => (plugMods kind ene now ms, .ok ())
  | .wallSwitch =>
    match hasPir devName with
    | .error e => (plugMods kind ene now ms, .error e)
    | .ok true => (pirMods kind (plugMods kind ene now ms), .ok ())
    | .ok false => (plugMods kind ene now ms, .ok ())
  | .dimmer => (dimmerMods kind ene now ms, .ok ())
  | .bulb => (bulbMods kind ene now ms, .ok ())
  | .lightStrip => (lightStripMods kind ene now ms, .ok ())
  | .strip => (stripMods kind ene now ms, .ok ())
  | .socket _ => (socketMods kind ene now ms, .ok ())
  | .camera => (deviceMods kind ene now ms, .ok ())

/-- `if not self._modules: await self._initialize_modules()` (iotdevice.py:319-320). -/
def ensure (kind : Kind) (ene : Bool) (devName : Option Json) (now : Int × Int) (ms : Mods) : Mods × Except Exc Unit :=
  if ms.isEmpty then setup kind ene devName now ms else (ms, .ok ())

/-- What an update asks for beside the modules (iotdevice.py:307-308, iotstrip.py:386). -/
def base : Kind → List (String × Json)
  | .socket _ => []
  | _ => sysInfoQuery

end Kasa.IotSetup
