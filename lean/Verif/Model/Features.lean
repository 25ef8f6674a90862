import Verif.Model.Feature
/-!
# The features of all devices and modules

What the `_initialize_features` of every device and module class registers.  Icons, units, hints and the getters themselves are
left out: of a getter or setter only whether it is given.
-/

namespace Kasa.Features
open PyM
open Feature (Kind Category)

/-- What the code asks before it registers a feature. -/
structure Facts where
  /-- is a key in the sysinfo of the device (`_info`, `_sys_info`, `sys_info`) -/
  has : String → Bool
  /-- `Energy.supports(CONSUMPTION_TOTAL)` and `supports(VOLTAGE_CURRENT)` (interfaces/energy.py:31-33) -/
  energyTotal : Bool
  energyVoltage : Bool
  /-- `Firmware.supported_version > 1` (smart/modules/firmware.py:77) -/
  autoUpdate : Bool
  /-- `LightTransition._supports_on_and_off` (smart/modules/lighttransition.py:48) -/
  onAndOff : Bool
  /-- is a key in the data of `Consumables` (smart/modules/consumables.py:94) -/
  consumable : String → Bool
  /-- the parent has a module `ChildSetup` (smart/smartdevice.py:548-550) -/
  parentPairs : Bool
  /-- the legacy device is a strip (iot/iotdevice.py:365) -/
  strip : Bool
  /-- `_is_dimmable`, `_is_variable_color_temp`, `_is_color` (iot/modules/light.py:36,50,66) -/
  dimmable : Bool
  variableTemp : Bool
  color : Bool
  /-- the answers for `Motion` are complete (iot/modules/motion.py:97-107) -/
  motion : Bool
  /-- `Module.LensMask in self._device.modules` (smartcam/modules/camera.py:37) -/
  lensMask : Bool
  /-- `self.rssi is not None` (smartcam/modules/device.py:41) -/
  signal : Bool
  /-- what reading `data` of a module raises, if it does (smart/smartmodule.py:178-214, iot/iotmodule.py:52-66) -/
  data : String → Option Exc

/-- A feature as it is constructed, and the condition under which it is.  `category` is that given in the call. -/
structure Row where
  id : String
  name : String
  kind : Kind
  category : Category := .unset
  getter : Bool := true
  setter : Bool := false
  choices : Bool := false
  range : Bool := false
  cond : Facts → Bool := fun _ => true

/-- A step of `_initialize_features`: it reads the data of the module, or registers a feature. -/
inductive Step where
  | read
  | row (r : Row)

/-- A module class. -/
structure Class where
  name : String
  steps : List Step

/-- The features of a newer device itself (smart/smartdevice.py:456-566). -/
def smartOwn : List Step :=
  [.row { id := "device_id", name := "Device ID", kind := .sensor, category := .debug },
    .row { id := "state", name := "State", kind := .switch, category := .primary, setter := true, cond := fun f => f.has "device_on" },
    .row { id := "signal_level", name := "Signal Level", kind := .sensor, category := .info, cond := fun f => f.has "signal_level" },
    .row { id := "rssi", name := "RSSI", kind := .sensor, category := .debug, cond := fun f => f.has "rssi" },
    .row { id := "ssid", name := "SSID", kind := .sensor, category := .debug, cond := fun f => f.has "ssid" },
    .row { id := "on_since", name := "On since", kind := .sensor, category := .debug, cond := fun f => f.has "on_time" },
    .row { id := "reboot", name := "Reboot", kind := .action, category := .debug, getter := false, setter := true },
    .row { id := "unpair", name := "Unpair device", kind := .action, category := .debug, getter := false, setter := true, cond := fun f => f.parentPairs }]

/-- The features of a legacy device itself (iot/iotdevice.py:339-393). -/
def iotOwn : List Step :=
  [.row { id := "state", name := "State", kind := .switch, category := .primary, setter := true },
    .row { id := "rssi", name := "RSSI", kind := .sensor, category := .debug },
    .row { id := "on_since", name := "On since", kind := .sensor, category := .info, cond := fun f => f.has "on_time" || f.strip },
    .row { id := "reboot", name := "Reboot", kind := .action, category := .debug, getter := false, setter := true }]

/-- The features of a socket of a legacy strip itself (iot/iotstrip.py:342-370). -/
def plugOwn : List Step :=
  [.row { id := "state", name := "State", kind := .switch, category := .primary, setter := true },
    .row { id := "on_since", name := "On since", kind := .sensor, category := .info }]

/-- `Energy._initialize_features` (interfaces/energy.py:35-117). -/
def energySteps : List Step :=
  [.row { id := "current_consumption", name := "Current consumption", kind := .sensor, category := .primary },
    .row { id := "consumption_today", name := "Today's consumption", kind := .sensor, category := .info },
    .row { id := "consumption_this_month", name := "This month's consumption", kind := .sensor, category := .info },
    .row { id := "consumption_total", name := "Total consumption since reboot", kind := .sensor, category := .info, cond := fun f => f.energyTotal },
    .row { id := "voltage", name := "Voltage", kind := .sensor, category := .primary, cond := fun f => f.energyVoltage },
    .row { id := "current", name := "Current", kind := .sensor, category := .primary, cond := fun f => f.energyVoltage }]

/-- `Led._initialize_features` (interfaces/led.py:14-29). -/
def ledSteps : List Step :=
  [.row { id := "led", name := "LED", kind := .switch, category := .config, setter := true }]

/-- `LightEffect._initialize_features` (interfaces/lighteffect.py:56-71). -/
def lightEffectSteps : List Step :=
  [.row { id := "light_effect", name := "Light effect", kind := .choice, category := .primary, setter := true, choices := true }]

/-- `LightPreset._initialize_features` (interfaces/lightpreset.py:86-101). -/
def lightPresetSteps : List Step :=
  [.row { id := "light_preset", name := "Light preset", kind := .choice, category := .config, setter := true, choices := true }]

/-- `Alarm._initialize_features` (smart/modules/alarm.py:40-136). -/
def smartAlarmSteps : List Step :=
  [.row { id := "alarm", name := "Alarm", kind := .binarySensor },
    .row { id := "alarm_source", name := "Alarm source", kind := .sensor },
    .row { id := "alarm_sound", name := "Alarm sound", kind := .choice, category := .config, setter := true, choices := true },
    .row { id := "alarm_volume", name := "Alarm volume", kind := .choice, category := .config, setter := true, choices := true },
    .row { id := "alarm_volume_level", name := "Alarm volume", kind := .number, category := .config, setter := true, range := true },
    .row { id := "alarm_duration", name := "Alarm duration", kind := .number, category := .config, setter := true, range := true },
    .row { id := "test_alarm", name := "Test alarm", kind := .action, getter := false, setter := true },
    .row { id := "stop_alarm", name := "Stop alarm", kind := .action, getter := false, setter := true }]

/-- `AutoOff._initialize_features` (smart/modules/autooff.py:20-55). -/
def smartAutoOffSteps : List Step :=
  [.row { id := "auto_off_enabled", name := "Auto off enabled", kind := .switch, setter := true },
    .row { id := "auto_off_minutes", name := "Auto off in", kind := .number, setter := true },
    .row { id := "auto_off_at", name := "Auto off at", kind := .sensor, category := .info }]

/-- `BatterySensor._initialize_features` (smart/modules/batterysensor.py:19-52). -/
def smartBatterySensorSteps : List Step :=
  [.row { id := "battery_low", name := "Battery low", kind := .binarySensor, category := .debug, cond := fun f => f.has "at_low_battery" || f.has "is_low" },
    .row { id := "battery_level", name := "Battery level", kind := .sensor, category := .info, cond := fun f => f.has "battery_percentage" }]

/-- `Brightness._initialize_features` (smart/modules/brightness.py:17-34). -/
def smartBrightnessSteps : List Step :=
  [.row { id := "brightness", name := "Brightness", kind := .number, category := .primary, setter := true, range := true }]

/-- `ChildLock._initialize_features` (smart/modules/childlock.py:15-28). -/
def smartChildLockSteps : List Step :=
  [.row { id := "child_lock", name := "Child lock", kind := .switch, category := .config, setter := true }]

/-- `ChildProtection._initialize_features` (smart/modules/childprotection.py:15-28). -/
def smartChildProtectionSteps : List Step :=
  [.row { id := "child_lock", name := "Child lock", kind := .switch, category := .config, setter := true }]

/-- `ChildSetup._initialize_features` (smart/modules/childsetup.py:28-40). -/
def smartChildSetupSteps : List Step :=
  [.row { id := "pair", name := "Pair", kind := .action, category := .config, getter := false, setter := true }]

/-- `Clean._initialize_features` (smart/modules/clean.py:80-224). -/
def smartCleanSteps : List Step :=
  [.row { id := "vacuum_return_home", name := "Return home", kind := .action, category := .primary, getter := false, setter := true },
    .row { id := "vacuum_start", name := "Start cleaning", kind := .action, category := .primary, getter := false, setter := true },
    .row { id := "vacuum_pause", name := "Pause", kind := .action, category := .primary, getter := false, setter := true },
    .row { id := "vacuum_status", name := "Vacuum status", kind := .sensor, category := .primary },
    .row { id := "vacuum_error", name := "Error", kind := .sensor, category := .info },
    .row { id := "battery_level", name := "Battery level", kind := .sensor, category := .info },
    .row { id := "vacuum_fan_speed", name := "Fan speed", kind := .choice, category := .primary, setter := true, choices := true },
    .row { id := "clean_count", name := "Clean count", kind := .number, category := .config, setter := true, range := true },
    .row { id := "carpet_boost", name := "Carpet boost", kind := .switch, category := .config, setter := true },
    .row { id := "clean_area", name := "Cleaning area", kind := .sensor, category := .info },
    .row { id := "clean_time", name := "Cleaning time", kind := .sensor, category := .info },
    .row { id := "clean_progress", name := "Cleaning progress", kind := .sensor, category := .info }]

/-- `CleanRecords._initialize_features` (smart/modules/cleanrecords.py:111-158). -/
def smartCleanRecordsSteps : List Step :=
  [.row { id := "total_clean_area", name := "Total area cleaned", kind := .sensor, category := .debug },
    .row { id := "total_clean_time", name := "Total time cleaned", kind := .sensor, category := .debug },
    .row { id := "last_clean_area", name := "Last area cleaned", kind := .sensor, category := .debug },
    .row { id := "last_clean_time", name := "Last time cleaned", kind := .sensor, category := .debug },
    .row { id := "total_clean_count", name := "Total clean count", kind := .sensor, category := .debug },
    .row { id := "last_clean_timestamp", name := "Last clean timestamp", kind := .sensor, category := .debug }]

/-- `Cloud._initialize_features` (smart/modules/cloud.py:16-29). -/
def smartCloudSteps : List Step :=
  [.row { id := "cloud_connection", name := "Cloud connection", kind := .binarySensor, category := .info }]

/-- `Color._initialize_features` (smart/modules/color.py:15-28). -/
def smartColorSteps : List Step :=
  [.row { id := "hsv", name := "HSV", kind := .unknown, setter := true }]

/-- `ColorTemperature._initialize_features` (smart/modules/colortemperature.py:21-35). -/
def smartColorTemperatureSteps : List Step :=
  [.row { id := "color_temperature", name := "Color temperature", kind := .number, category := .primary, setter := true, range := true }]

/-- `Consumables._initialize_features` (smart/modules/consumables.py:91-135). -/
def smartConsumablesSteps : List Step :=
  [.read,
    .row { id := "main_brush_used", name := "Main brush used", kind := .sensor, category := .debug, cond := fun f => f.consumable "roll_brush_time" },
    .row { id := "main_brush_remaining", name := "Main brush remaining", kind := .sensor, category := .info, cond := fun f => f.consumable "roll_brush_time" },
    .row { id := "main_brush_reset", name := "Reset main brush consumable", kind := .action, category := .debug, getter := false, setter := true, cond := fun f => f.consumable "roll_brush_time" },
    .read,
    .row { id := "side_brush_used", name := "Side brush used", kind := .sensor, category := .debug, cond := fun f => f.consumable "edge_brush_time" },
    .row { id := "side_brush_remaining", name := "Side brush remaining", kind := .sensor, category := .info, cond := fun f => f.consumable "edge_brush_time" },
    .row { id := "side_brush_reset", name := "Reset side brush consumable", kind := .action, category := .debug, getter := false, setter := true, cond := fun f => f.consumable "edge_brush_time" },
    .read,
    .row { id := "filter_used", name := "Filter used", kind := .sensor, category := .debug, cond := fun f => f.consumable "filter_time" },
    .row { id := "filter_remaining", name := "Filter remaining", kind := .sensor, category := .info, cond := fun f => f.consumable "filter_time" },
    .row { id := "filter_reset", name := "Reset filter consumable", kind := .action, category := .debug, getter := false, setter := true, cond := fun f => f.consumable "filter_time" },
    .read,
    .row { id := "sensor_used", name := "Sensor used", kind := .sensor, category := .debug, cond := fun f => f.consumable "sensor_time" },
    .row { id := "sensor_remaining", name := "Sensor remaining", kind := .sensor, category := .info, cond := fun f => f.consumable "sensor_time" },
    .row { id := "sensor_reset", name := "Reset sensor consumable", kind := .action, category := .debug, getter := false, setter := true, cond := fun f => f.consumable "sensor_time" },
    .read,
    .row { id := "charging_contacts_used", name := "Charging contacts used", kind := .sensor, category := .debug, cond := fun f => f.consumable "charge_contact_time" },
    .row { id := "charging_contacts_remaining", name := "Charging contacts remaining", kind := .sensor, category := .info, cond := fun f => f.consumable "charge_contact_time" },
    .row { id := "charging_contacts_reset", name := "Reset charging contacts consumable", kind := .action, category := .debug, getter := false, setter := true, cond := fun f => f.consumable "charge_contact_time" }]

/-- `ContactSensor._initialize_features` (smart/modules/contactsensor.py:15-28). -/
def smartContactSensorSteps : List Step :=
  [.row { id := "is_open", name := "Open", kind := .binarySensor, category := .primary }]

/-- `Dustbin._initialize_features` (smart/modules/dustbin.py:30-70). -/
def smartDustbinSteps : List Step :=
  [.row { id := "dustbin_empty", name := "Empty dustbin", kind := .action, category := .config, getter := false, setter := true },
    .row { id := "dustbin_autocollection_enabled", name := "Automatic emptying enabled", kind := .switch, category := .config, setter := true },
    .row { id := "dustbin_mode", name := "Automatic emptying mode", kind := .choice, category := .config, setter := true, choices := true }]

/-- `Fan._initialize_features` (smart/modules/fan.py:18-45). -/
def smartFanSteps : List Step :=
  [.row { id := "fan_speed_level", name := "Fan speed level", kind := .number, category := .primary, setter := true, range := true },
    .row { id := "fan_sleep_mode", name := "Fan sleep mode", kind := .switch, setter := true }]

/-- `Firmware._initialize_features` (smart/modules/firmware.py:74-132). -/
def smartFirmwareSteps : List Step :=
  [.row { id := "auto_update_enabled", name := "Auto update enabled", kind := .switch, setter := true, cond := fun f => f.autoUpdate },
    .row { id := "update_available", name := "Update available", kind := .binarySensor, category := .info },
    .row { id := "current_firmware_version", name := "Current firmware version", kind := .sensor, category := .debug },
    .row { id := "available_firmware_version", name := "Available firmware version", kind := .sensor, category := .debug },
    .row { id := "check_latest_firmware", name := "Check latest firmware", kind := .action, category := .info, getter := false, setter := true }]

/-- `HomeKit._initialize_features` (smart/modules/homekit.py:15-27). -/
def smartHomeKitSteps : List Step :=
  [.row { id := "homekit_setup_code", name := "Homekit setup code", kind := .sensor, category := .debug }]

/-- `HumiditySensor._initialize_features` (smart/modules/humiditysensor.py:15-41). -/
def smartHumiditySensorSteps : List Step :=
  [.row { id := "humidity", name := "Humidity", kind := .sensor, category := .primary },
    .row { id := "humidity_warning", name := "Humidity warning", kind := .binarySensor, category := .debug }]

/-- `LightTransition._initialize_features` (smart/modules/lighttransition.py:50-92). -/
def smartLightTransitionSteps : List Step :=
  [.row { id := "smooth_transitions", name := "Smooth transitions", kind := .switch, setter := true, cond := fun f => !f.onAndOff },
    .row { id := "smooth_transition_on", name := "Smooth transition on", kind := .number, setter := true, range := true, cond := fun f => f.onAndOff },
    .row { id := "smooth_transition_off", name := "Smooth transition off", kind := .number, setter := true, range := true, cond := fun f => f.onAndOff }]

/-- `Matter._initialize_features` (smart/modules/matter.py:15-38). -/
def smartMatterSteps : List Step :=
  [.row { id := "matter_setup_code", name := "Matter setup code", kind := .sensor, category := .debug },
    .row { id := "matter_setup_payload", name := "Matter setup payload", kind := .sensor, category := .debug }]

/-- `Mop._initialize_features` (smart/modules/mop.py:30-58). -/
def smartMopSteps : List Step :=
  [.row { id := "mop_attached", name := "Mop attached", kind := .binarySensor, category := .info },
    .row { id := "mop_waterlevel", name := "Mop water level", kind := .choice, category := .config, setter := true, choices := true }]

/-- `MotionSensor._initialize_features` (smart/modules/motionsensor.py:14-27). -/
def smartMotionSensorSteps : List Step :=
  [.row { id := "motion_detected", name := "Motion detected", kind := .binarySensor, category := .primary }]

/-- `OverheatProtection._initialize_features` (smart/modules/overheatprotection.py:14-27). -/
def smartOverheatProtectionSteps : List Step :=
  [.row { id := "overheated", name := "Overheated", kind := .binarySensor, category := .info }]

/-- `PowerProtection._initialize_features` (smart/modules/powerprotection.py:17-43). -/
def smartPowerProtectionSteps : List Step :=
  [.row { id := "overloaded", name := "Overloaded", kind := .binarySensor, category := .info },
    .row { id := "power_protection_threshold", name := "Power protection threshold", kind := .number, category := .config, setter := true, range := true }]

/-- `ReportMode._initialize_features` (smart/modules/reportmode.py:15-28). -/
def smartReportModeSteps : List Step :=
  [.row { id := "report_interval", name := "Report interval", kind := .sensor, category := .debug }]

/-- `Speaker._initialize_features` (smart/modules/speaker.py:20-45). -/
def smartSpeakerSteps : List Step :=
  [.row { id := "locate", name := "Locate device", kind := .action, category := .primary, getter := false, setter := true },
    .row { id := "volume", name := "Volume", kind := .number, category := .config, setter := true, range := true }]

/-- `TemperatureControl._initialize_features` (smart/modules/temperaturecontrol.py:19-71). -/
def smartTemperatureControlSteps : List Step :=
  [.row { id := "target_temperature", name := "Target temperature", kind := .number, category := .primary, setter := true, range := true },
    .row { id := "temperature_offset", name := "Temperature offset", kind := .number, category := .config, setter := true, range := true },
    .row { id := "state", name := "State", kind := .switch, category := .primary, setter := true },
    .row { id := "thermostat_mode", name := "Thermostat mode", kind := .sensor, category := .primary }]

/-- `TemperatureSensor._initialize_features` (smart/modules/temperaturesensor.py:17-56). -/
def smartTemperatureSensorSteps : List Step :=
  [.row { id := "temperature", name := "Temperature", kind := .sensor, category := .primary },
    .row { id := "temperature_warning", name := "Temperature warning", kind := .binarySensor, category := .debug, cond := fun f => f.has "current_temp_exception" },
    .row { id := "temperature_unit", name := "Temperature unit", kind := .choice, setter := true, choices := true }]

/-- `Time._initialize_features` (smart/modules/time.py:23-35). -/
def smartTimeSteps : List Step :=
  [.row { id := "device_time", name := "Device time", kind := .sensor, category := .debug }]

/-- `WaterleakSensor._initialize_features` (smart/modules/waterleaksensor.py:25-62). -/
def smartWaterleakSensorSteps : List Step :=
  [.row { id := "water_leak", name := "Water leak", kind := .sensor, category := .debug },
    .row { id := "water_alert", name := "Water alert", kind := .binarySensor, category := .primary },
    .row { id := "water_alert_timestamp", name := "Last alert timestamp", kind := .sensor, category := .info }]

/-- `Alarm._initialize_features` (smartcam/modules/alarm.py:35-108). -/
def camAlarmSteps : List Step :=
  [.row { id := "alarm", name := "Alarm", kind := .binarySensor, category := .debug },
    .row { id := "alarm_sound", name := "Alarm sound", kind := .choice, category := .config, setter := true, choices := true },
    .row { id := "alarm_volume", name := "Alarm volume", kind := .number, category := .config, setter := true, range := true },
    .row { id := "alarm_duration", name := "Alarm duration", kind := .number, category := .config, setter := true, range := true },
    .row { id := "test_alarm", name := "Test alarm", kind := .action, getter := false, setter := true },
    .row { id := "stop_alarm", name := "Stop alarm", kind := .action, getter := false, setter := true }]

/-- `BabyCryDetection._initialize_features` (smartcam/modules/babycrydetection.py:23-36). -/
def camBabyCryDetectionSteps : List Step :=
  [.row { id := "baby_cry_detection", name := "Baby cry detection", kind := .switch, category := .config, setter := true }]

/-- `Battery._initialize_features` (smartcam/modules/battery.py:18-84). -/
def camBatterySteps : List Step :=
  [.row { id := "battery_low", name := "Battery low", kind := .binarySensor, category := .debug },
    .row { id := "battery_level", name := "Battery level", kind := .sensor, category := .info },
    .row { id := "battery_temperature", name := "Battery temperature", kind := .sensor, category := .debug },
    .row { id := "battery_voltage", name := "Battery voltage", kind := .sensor, category := .debug },
    .row { id := "battery_charging", name := "Battery charging", kind := .binarySensor, category := .debug }]

/-- `Camera._initialize_features` (smartcam/modules/camera.py:35-49). -/
def camCameraSteps : List Step :=
  [.row { id := "state", name := "State", kind := .switch, category := .primary, setter := true, cond := fun f => f.lensMask }]

/-- `ChildSetup._initialize_features` (smartcam/modules/childsetup.py:29-41). -/
def camChildSetupSteps : List Step :=
  [.row { id := "pair", name := "Pair", kind := .action, category := .config, getter := false, setter := true }]

/-- `DeviceModule._initialize_features` (smartcam/modules/device.py:29-66). -/
def camDeviceModuleSteps : List Step :=
  [.row { id := "device_id", name := "Device ID", kind := .sensor, category := .debug },
    .read,
    .row { id := "rssi", name := "RSSI", kind := .sensor, category := .debug, cond := fun f => f.signal },
    .row { id := "signal_level", name := "Signal Level", kind := .sensor, category := .info, cond := fun f => f.signal }]

/-- `Matter._initialize_features` (smartcam/modules/matter.py:16-39). -/
def camMatterSteps : List Step :=
  [.row { id := "matter_setup_code", name := "Matter setup code", kind := .sensor, category := .debug },
    .row { id := "matter_setup_payload", name := "Matter setup payload", kind := .sensor, category := .debug }]

/-- `MotionDetection._initialize_features` (smartcam/modules/motiondetection.py:23-36). -/
def camMotionDetectionSteps : List Step :=
  [.row { id := "motion_detection", name := "Motion detection", kind := .switch, category := .config, setter := true }]

/-- `PanTilt._initialize_features` (smartcam/modules/pantilt.py:19-89). -/
def camPanTiltSteps : List Step :=
  [.row { id := "pan_right", name := "Pan right", kind := .action, getter := false, setter := true },
    .row { id := "pan_left", name := "Pan left", kind := .action, getter := false, setter := true },
    .row { id := "pan_step", name := "Pan step", kind := .number, setter := true },
    .row { id := "tilt_up", name := "Tilt up", kind := .action, getter := false, setter := true },
    .row { id := "tilt_down", name := "Tilt down", kind := .action, getter := false, setter := true },
    .row { id := "tilt_step", name := "Tilt step", kind := .number, setter := true }]

/-- `PersonDetection._initialize_features` (smartcam/modules/persondetection.py:23-36). -/
def camPersonDetectionSteps : List Step :=
  [.row { id := "person_detection", name := "Person detection", kind := .switch, category := .config, setter := true }]

/-- `PetDetection._initialize_features` (smartcam/modules/petdetection.py:23-36). -/
def camPetDetectionSteps : List Step :=
  [.row { id := "pet_detection", name := "Pet detection", kind := .switch, category := .config, setter := true }]

/-- `TamperDetection._initialize_features` (smartcam/modules/tamperdetection.py:23-36). -/
def camTamperDetectionSteps : List Step :=
  [.row { id := "tamper_detection", name := "Tamper detection", kind := .switch, category := .config, setter := true }]

/-- `Time._initialize_features` (smartcam/modules/time.py:26-38). -/
def camTimeSteps : List Step :=
  [.row { id := "device_time", name := "Device time", kind := .sensor, category := .debug }]

/-- `AmbientLight._initialize_features` (iot/modules/ambientlight.py:14-41). -/
def iotAmbientLightSteps : List Step :=
  [.row { id := "ambient_light_enabled", name := "Ambient light enabled", kind := .switch, category := .config, setter := true },
    .row { id := "ambient_light", name := "Ambient Light", kind := .sensor, category := .primary }]

/-- `Cloud._initialize_features` (iot/modules/cloud.py:32-45). -/
def iotCloudSteps : List Step :=
  [.row { id := "cloud_connection", name := "Cloud connection", kind := .binarySensor, category := .info }]

/-- `Dimmer._initialize_features` (iot/modules/dimmer.py:42-144). -/
def iotDimmerSteps : List Step :=
  [.row { id := "dimmer_threshold_min", name := "Minimum dimming level", kind := .number, category := .config, setter := true, range := true },
    .row { id := "dimmer_fade_off_time", name := "Dimmer fade off time", kind := .number, category := .config, setter := true, range := true },
    .row { id := "dimmer_fade_on_time", name := "Dimmer fade on time", kind := .number, category := .config, setter := true, range := true },
    .row { id := "dimmer_gentle_off_time", name := "Dimmer gentle off time", kind := .number, category := .config, setter := true, range := true },
    .row { id := "dimmer_gentle_on_time", name := "Dimmer gentle on time", kind := .number, category := .config, setter := true, range := true },
    .row { id := "dimmer_ramp_rate", name := "Dimmer ramp rate", kind := .number, category := .config, setter := true, range := true }]

/-- `Light._initialize_features` (iot/modules/light.py:31-78). -/
def iotLightSteps : List Step :=
  [.row { id := "brightness", name := "Brightness", kind := .number, category := .primary, setter := true, range := true, cond := fun f => f.dimmable },
    .row { id := "color_temperature", name := "Color temperature", kind := .number, category := .primary, setter := true, range := true, cond := fun f => f.variableTemp },
    .row { id := "hsv", name := "HSV", kind := .unknown, setter := true, cond := fun f => f.color }]

/-- `Motion._initialize_features` (iot/modules/motion.py:94-250). -/
def iotMotionSteps : List Step :=
  [.read,
    .row { id := "pir_enabled", name := "PIR enabled", kind := .switch, category := .config, setter := true, cond := fun f => f.motion },
    .row { id := "pir_range", name := "Motion Sensor Range", kind := .choice, category := .config, setter := true, choices := true, cond := fun f => f.motion },
    .row { id := "pir_threshold", name := "Motion Sensor Threshold", kind := .number, category := .config, setter := true, range := true, cond := fun f => f.motion },
    .row { id := "pir_triggered", name := "PIR Triggered", kind := .sensor, category := .primary, cond := fun f => f.motion },
    .row { id := "pir_value", name := "PIR Value", kind := .sensor, category := .info, cond := fun f => f.motion },
    .row { id := "pir_adc_value", name := "PIR ADC Value", kind := .sensor, category := .debug, cond := fun f => f.motion },
    .row { id := "pir_adc_min", name := "PIR ADC Min", kind := .sensor, category := .debug, cond := fun f => f.motion },
    .row { id := "pir_adc_mid", name := "PIR ADC Mid", kind := .sensor, category := .debug, cond := fun f => f.motion },
    .row { id := "pir_adc_max", name := "PIR ADC Max", kind := .sensor, category := .debug, cond := fun f => f.motion },
    .row { id := "pir_percent", name := "PIR Percentile", kind := .sensor, category := .debug, cond := fun f => f.motion }]

/-- The module classes of newer devices, by name (smart/modules/__init__.py:1-91). -/
def smartClasses : List Class :=
  [⟨"Alarm", smartAlarmSteps⟩,
    ⟨"AutoOff", smartAutoOffSteps⟩,
    ⟨"BatterySensor", smartBatterySensorSteps⟩,
    ⟨"Brightness", smartBrightnessSteps⟩,
    ⟨"ChildDevice", []⟩,
    ⟨"ChildLock", smartChildLockSteps⟩,
    ⟨"ChildProtection", smartChildProtectionSteps⟩,
    ⟨"ChildSetup", smartChildSetupSteps⟩,
    ⟨"Clean", smartCleanSteps⟩,
    ⟨"CleanRecords", smartCleanRecordsSteps⟩,
    ⟨"Cloud", smartCloudSteps⟩,
    ⟨"Color", smartColorSteps⟩,
    ⟨"ColorTemperature", smartColorTemperatureSteps⟩,
    ⟨"Consumables", smartConsumablesSteps⟩,
    ⟨"ContactSensor", smartContactSensorSteps⟩,
    ⟨"DeviceModule", []⟩,
    ⟨"Dustbin", smartDustbinSteps⟩,
    ⟨"Energy", energySteps⟩,
    ⟨"Fan", smartFanSteps⟩,
    ⟨"Firmware", smartFirmwareSteps⟩,
    ⟨"FrostProtection", []⟩,
    ⟨"HomeKit", smartHomeKitSteps⟩,
    ⟨"HumiditySensor", smartHumiditySensorSteps⟩,
    ⟨"Led", ledSteps⟩,
    ⟨"Light", []⟩,
    ⟨"LightEffect", lightEffectSteps⟩,
    ⟨"LightPreset", lightPresetSteps⟩,
    ⟨"LightEffect", lightEffectSteps⟩,
    ⟨"LightTransition", smartLightTransitionSteps⟩,
    ⟨"Matter", smartMatterSteps⟩,
    ⟨"Mop", smartMopSteps⟩,
    ⟨"MotionSensor", smartMotionSensorSteps⟩,
    ⟨"OverheatProtection", smartOverheatProtectionSteps⟩,
    ⟨"PowerProtection", smartPowerProtectionSteps⟩,
    ⟨"ReportMode", smartReportModeSteps⟩,
    ⟨"Speaker", smartSpeakerSteps⟩,
    ⟨"TemperatureControl", smartTemperatureControlSteps⟩,
    ⟨"TemperatureSensor", smartTemperatureSensorSteps⟩,
    ⟨"Thermostat", []⟩,
    ⟨"Time", smartTimeSteps⟩,
    ⟨"TriggerLogs", []⟩,
    ⟨"WaterleakSensor", smartWaterleakSensorSteps⟩]

/-- The module classes of cameras, by name (smartcam/modules/__init__.py:1-39). -/
def camClasses : List Class :=
  [⟨"Alarm", camAlarmSteps⟩,
    ⟨"BabyCryDetection", camBabyCryDetectionSteps⟩,
    ⟨"Battery", camBatterySteps⟩,
    ⟨"Camera", camCameraSteps⟩,
    ⟨"childdevice", []⟩,
    ⟨"ChildSetup", camChildSetupSteps⟩,
    ⟨"devicemodule", camDeviceModuleSteps⟩,
    ⟨"HomeKit", []⟩,
    ⟨"Led", ledSteps⟩,
    ⟨"LensMask", []⟩,
    ⟨"Matter", camMatterSteps⟩,
    ⟨"MotionDetection", camMotionDetectionSteps⟩,
    ⟨"PanTilt", camPanTiltSteps⟩,
    ⟨"PersonDetection", camPersonDetectionSteps⟩,
    ⟨"PetDetection", camPetDetectionSteps⟩,
    ⟨"TamperDetection", camTamperDetectionSteps⟩,
    ⟨"Time", camTimeSteps⟩]

/-- The module classes of legacy devices, by name (iot/modules/__init__.py:1-37). -/
def iotClasses : List Class :=
  [⟨"AmbientLight", iotAmbientLightSteps⟩,
    ⟨"Antitheft", []⟩,
    ⟨"Cloud", iotCloudSteps⟩,
    ⟨"Countdown", []⟩,
    ⟨"Dimmer", iotDimmerSteps⟩,
    ⟨"Emeter", energySteps⟩,
    ⟨"Led", ledSteps⟩,
    ⟨"Light", iotLightSteps⟩,
    ⟨"LightEffect", lightEffectSteps⟩,
    ⟨"LightPreset", lightPresetSteps⟩,
    ⟨"Motion", iotMotionSteps⟩,
    ⟨"Schedule", []⟩,
    ⟨"Time", []⟩,
    ⟨"Usage", []⟩]

/-! ## Registering them -/

/-- The features of the device and those of its modules (device.py:219, module.py:184). -/
structure St where
  features : List Row
  modules : List (String × List Row)

def St.of (s : St) (name : String) : List Row := (Dict.get? s.modules name).getD []

/-- `Device._add_feature` (device.py:453-458). -/
def deviceAdd (r : Row) : PyM St Unit := fun s =>
  if s.features.any (fun x => x.id == r.id) then (.error .kasa, s) else (.ok (), { s with features := s.features ++ [r] })

/-- `Module._add_feature` (module.py:235-240). -/
def moduleAdd (name : String) (r : Row) : PyM St Unit := fun s =>
  if (s.of name).any (fun x => x.id == r.id) then (.error .kasa, s)
  else (.ok (), { s with modules := Dict.set s.modules name (s.of name ++ [r]) })

/-- A step of a module. -/
def moduleStep (name : String) (f : Facts) : Step → PyM St Unit
  | .read => match f.data name with | some e => raise e | none => pure ()
  | .row r => if r.cond f then moduleAdd name r else pure ()

/-- A step of a device. -/
def ownStep (f : Facts) : Step → PyM St Unit
  | .read => pure ()
  | .row r => if r.cond f then deviceAdd r else pure ()

/-- One round of the loop over the modules (smartdevice.py:563-566, smartcamdevice.py:182-185, iotdevice.py:390-393,
iotstrip.py:367-370). -/
def addModule (f : Facts) (c : Class) : PyM St Unit := do
  forEach (moduleStep c.name f) c.steps
  forEach deviceAdd ((← getS).of c.name)

/-- `_initialize_features` of a device (smartdevice.py:456-566, smartcamdevice.py:180-185, iotdevice.py:339-393,
iotstrip.py:342-370). -/
def initFeatures (own : List Step) (mods : List Class) (f : Facts) : PyM St Unit := do
  forEach (ownStep f) own
  forEach (addModule f) mods

/-- The end of an update: features are only initialised if there are none (smartdevice.py:291-294, smartchilddevice.py:112-115,
iotdevice.py:326-329, iotstrip.py:388-390). -/
def ensure (own : List Step) (mods : List Class) (f : Facts) : PyM St Unit := fun s =>
  if s.features.isEmpty then initFeatures own mods f s else (.ok (), s)

/-- `state_information` (device.py:443-446); a value is given by the id of its feature. -/
def stateInformation (features : List Row) : List (String × String) := features.foldl (fun d r => Dict.set d r.name r.id) []

end Kasa.Features
