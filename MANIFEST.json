{
 "claims": [
  {
   "property": "C01",
   "status": "proved",
   "theorems": [
    "Kasa.Xor.C01_encrypt_eq_frame",
    "Kasa.Xor.C01_encrypt_refuses",
    "Kasa.Xor.C01_round_trip",
    "Kasa.Xor.C01_decrypt_bijective"
   ],
   "note": ""
  },
  {
   "property": "C02",
   "status": "proved",
   "theorems": [
    "Kasa.Xor.C02_read_one",
    "Kasa.Xor.C02_read_all",
    "Kasa.Xor.C02_truncated_fails",
    "Kasa.Xor.C02_never_short"
   ],
   "note": ""
  },
  {
   "property": "C03",
   "status": "proved",
   "theorems": [
    "Kasa.XorT.C03_own_answer",
    "Kasa.XorT.C03_failure_drops_connection",
    "Kasa.XorT.C03_failure_class",
    "Kasa.XorT.C03_succeeds_when_nothing_fails"
   ],
   "note": ""
  },
  {
   "property": "C04",
   "status": "proved",
   "theorems": [
    "Kasa.Retry.C04_iot_query",
    "Kasa.Retry.C04_smart_query",
    "Kasa.Retry.C04_any_environment",
    "Kasa.Retry.C04_negative_count"
   ],
   "note": ""
  },
  {
   "property": "C05",
   "status": "proved",
   "theorems": [
    "Kasa.Lock.C05_exclusive",
    "Kasa.Lock.C05_serial",
    "Kasa.Lock.C05_lock_released",
    "Kasa.Lock.C05_transfer",
    "Kasa.Lock.C05_own_answer"
   ],
   "note": ""
  },
  {
   "property": "C06",
   "status": "partial",
   "theorems": [
    "Kasa.SmartCam.C06_cam_every_method",
    "Kasa.Smart.C06_every_method",
    "Kasa.Smart.C06_nothing_else",
    "Kasa.Smart.C06_batches",
    "Kasa.Smart.C06_honest_device",
    "Kasa.Smart.C06_batch_size_one_partial",
    "Kasa.Smart.C06_batch_size_one_drops",
    "Kasa.Smart.C06_batch_size_one_key_error",
    "Kasa.Smart.C06_empty_batch_sent"
   ],
   "note": "Holds for every device when batching is enabled; with batch size one the never-batched methods are silently dropped (C06_batch_size_one_drops) and a missing result is a KeyError."
  },
  {
   "property": "C07",
   "status": "proved",
   "theorems": [
    "Kasa.Smart.C07_only_to_one",
    "Kasa.Smart.C07_sticky",
    "Kasa.Smart.C07_fallback",
    "Kasa.Smart.C07_recovers"
   ],
   "note": ""
  },
  {
   "property": "C08",
   "status": "partial",
   "theorems": [
    "Kasa.Smart.C08_complete_list",
    "Kasa.Smart.C08_batched_partial",
    "Kasa.Smart.C08_any_device",
    "Kasa.Smart.C08_requeried_list_truncated"
   ],
   "note": "Holds for every list asked for in a batch; a list asked for again on its own is not paged (C08_requeried_list_truncated)."
  },
  {
   "property": "C09",
   "status": "partial",
   "theorems": [
    "Kasa.Codes.C09_protocol",
    "Kasa.Codes.C09_protocol_entry",
    "Kasa.Codes.C09_aes",
    "Kasa.Codes.C09_disjoint",
    "Kasa.Codes.C09_any_json_partial",
    "Kasa.Codes.C09_unhashable_code_escapes",
    "Kasa.Codes.C09_ssl_partial",
    "Kasa.Codes.C09_ssl_unknown_code_escapes"
   ],
   "note": "Proved for every integer code of the protocol and the AES transport; the SSL transport escapes with ValueError on unknown codes, and unhashable JSON codes with TypeError."
  },
  {
   "property": "C10",
   "status": "partial",
   "theorems": [
    "Kasa.Child.C10_envelope",
    "Kasa.Child.C10_single",
    "Kasa.Child.C10_no_data",
    "Kasa.Child.C10_multi_partial",
    "Kasa.Child.C10_cam_envelope",
    "Kasa.Child.C10_cam_partial",
    "Kasa.Child.C10_unanswered_method_dropped",
    "Kasa.Child.C10_child_error_ignored",
    "Kasa.Child.C10_cam_unanswered_method_dropped",
    "Kasa.Child.C10_cam_envelope_error_escapes"
   ],
   "note": "Proved for children that answer every method; unanswered methods are dropped and batch errors ignored (witnesses)."
  },
  {
   "property": "C11",
   "status": "proved",
   "theorems": [
    "Kasa.Klap.C11_sequence",
    "Kasa.Klap.C11_distinct_ivs",
    "Kasa.Klap.C11_reply",
    "Kasa.Klap.C11_exhausted_stays_exhausted"
   ],
   "note": "Numbers, keys and round trip for every session and every history; an exhausted counter fails forever (C11_exhausted_stays_exhausted)."
  },
  {
   "property": "C12",
   "status": "proved",
   "theorems": [
    "Kasa.Klap.C12_klap_matched_credentials",
    "Kasa.Klap.C12_completed",
    "Kasa.Klap.C12_refused",
    "Kasa.Klap.C12_failed",
    "Kasa.Klap.C12_genuine_v1",
    "Kasa.Klap.C12_genuine_v2"
   ],
   "note": ""
  },
  {
   "property": "C13",
   "status": "partial",
   "theorems": [
    "Kasa.Aes.C13_aes_partial",
    "Kasa.Aes.C13_aes_login_partial",
    "Kasa.Aes.C13_aes_readable_keys",
    "Kasa.Aes.C13_aes_bad_key",
    "Kasa.Klap.C13_klap_live_session"
   ],
   "note": "KLAP: proved for every history. AES: proved except after a handshake answered with an unreadable session key, where the old session is used again (C13_aes_bad_key)."
  },
  {
   "property": "C14",
   "status": "partial",
   "theorems": [
    "Kasa.SslAes.C14_traffic",
    "Kasa.SslAes.C14_encrypted_partial",
    "Kasa.SslAes.C14_numbers",
    "Kasa.SslAes.C14_downgrade"
   ],
   "note": "Numbers and tags proved for every history; encryption proved until a less secure login has succeeded once, after which secure logins do not restore it (C14_downgrade)."
  },
  {
   "property": "C15",
   "status": "partial",
   "theorems": [
    "Kasa.Redact.C15_faithful",
    "Kasa.Redact.C15_hidden_partial",
    "Kasa.Redact.C15_any_depth",
    "Kasa.Redact.C15_noninterference",
    "Kasa.Redact.C15_table_iot",
    "Kasa.Redact.C15_table_smart",
    "Kasa.Redact.C15_table_discovery",
    "Kasa.Redact.C15_children",
    "Kasa.Redact.C15_nested_leak",
    "Kasa.Redact.C15_input_unchanged",
    "Kasa.Redact.C15_objects",
    "Kasa.Redact.C15_objects_iot"
   ],
   "note": "Proved: faithfulness outside sensitive keys, masking of the outermost sensitive key, non-interference, all four tables, full any-depth statement for flat tables, no input object modified (heap model). Missing: a sensitive key inside the value of another sensitive key; C15_nested_leak shows the legacy table prints a child's MAC address."
  },
  {
   "property": "C16",
   "status": "partial",
   "theorems": [
    "Kasa.Discover.C16_first_datagram",
    "Kasa.Discover.C16_ports",
    "Kasa.Discover.C16_other_ports",
    "Kasa.Discover.C16_disjoint",
    "Kasa.Discover.C16_one_of_three_partial",
    "Kasa.Discover.C16_callback_once",
    "Kasa.Discover.C16_unsupported_once",
    "Kasa.Discover.C16_new_style",
    "Kasa.Discover.C16_legacy_device",
    "Kasa.Discover.C16_legacy_camera",
    "Kasa.Discover.C16_new_device"
   ],
   "note": "Proved for every sequence of datagrams: the first datagram of a host alone decides, the callbacks run once, the three outcomes exclude each other. Missing: a first datagram that makes the library raise an exception that is not its own (C16_legacy_camera) leaves the host in none of them."
  },
  {
   "property": "C17",
   "status": "partial",
   "theorems": [
    "Kasa.Discover.C17_result_partial",
    "Kasa.Discover.C17_stops",
    "Kasa.Discover.C17_unexpected_port",
    "Kasa.Discover.C17_no_protocol"
   ],
   "note": "Proved for every sequence of datagrams in which the first one from the target is readable. False when the host sends something from another port first (C17_unexpected_port) and when the answer yields a device without protocol (C17_no_protocol)."
  },
  {
   "property": "C18",
   "status": "proved",
   "theorems": [
    "Kasa.Discover.C18_probe",
    "Kasa.Discover.C18_too_long",
    "Kasa.Discover.C18_answer"
   ],
   "note": ""
  },
  {
   "property": "C19",
   "status": "partial",
   "theorems": [
    "Kasa.Config.C19_round_trip_partial",
    "Kasa.Config.C19_no_timeout",
    "Kasa.Config.C19_defaults",
    "Kasa.Config.C19_injective",
    "Kasa.Config.C19_omits_none",
    "Kasa.Config.C19_credentials",
    "Kasa.Config.C19_from_values"
   ],
   "note": "Proved for every configuration with a timeout; a configuration with timeout None comes back with the default timeout (C19_no_timeout)."
  },
  {
   "property": "C20",
   "status": "proved",
   "theorems": [
    "Kasa.Connect.C20_connect_unsupported",
    "Kasa.Connect.C20_connect_arguments",
    "Kasa.Factory.C20_strict",
    "Kasa.Factory.C20_lenient",
    "Kasa.Factory.C20_function",
    "Kasa.Factory.C20_superset"
   ],
   "note": ""
  },
  {
   "property": "C21",
   "status": "proved",
   "theorems": [
    "Kasa.Connect.C21_raise",
    "Kasa.Connect.C21_same_error",
    "Kasa.Connect.C21_return"
   ],
   "note": ""
  },
  {
   "property": "C22",
   "status": "proved",
   "theorems": [
    "Kasa.Iot.C22_asked",
    "Kasa.Iot.C22_requests",
    "Kasa.Iot.C22_no_needless_split",
    "Kasa.Iot.C22_answers"
   ],
   "note": ""
  },
  {
   "property": "C23",
   "status": "partial",
   "theorems": [
    "Kasa.Iot.C23_accepted",
    "Kasa.Iot.C23_refused_partial",
    "Kasa.Iot.C23_transport",
    "Kasa.Iot.C23_request",
    "Kasa.Iot.C23_only_accepted",
    "Kasa.Iot.C23_malformed"
   ],
   "note": "Proved for answers in which dicts stand under target and command. C23_malformed: a number there leaves the library as TypeError, not KasaException."
  },
  {
   "property": "C24",
   "status": "partial",
   "theorems": [
    "Kasa.SysInfo.C24_kind_partial",
    "Kasa.SysInfo.C24_no_type",
    "Kasa.SysInfo.C24_no_sysinfo",
    "Kasa.SysInfo.C24_camera",
    "Kasa.SysInfo.C24_nested",
    "Kasa.SysInfo.C24_null_name"
   ],
   "note": "Proved for every record with a textual type and textual name; camera records raise KeyError (C24_camera) and a null name TypeError (C24_null_name)."
  },
  {
   "property": "C25",
   "status": "proved",
   "theorems": [
    "Kasa.Strip.C25_children",
    "Kasa.Strip.C25_is_on",
    "Kasa.Strip.C25_is_off",
    "Kasa.Strip.C25_commands",
    "Kasa.Strip.C25_all_switched",
    "Kasa.Strip.C25_plug_on_since",
    "Kasa.Strip.C25_on_since"
   ],
   "note": ""
  },
  {
   "property": "C26",
   "status": "partial",
   "theorems": [
    "Kasa.StripData.C26_own_partial",
    "Kasa.StripData.C26_shared",
    "Kasa.StripData.C26_sibling_overwrites"
   ],
   "note": "Proved for data of targets the strip had not read when its sockets were made (energy, usage); for the targets it had read the dicts are shared objects and a later update of one socket overwrites what the others report (C26_shared, C26_sibling_overwrites)."
  },
  {
   "property": "C27",
   "status": "partial",
   "theorems": [
    "Kasa.Emeter.C27_units_partial",
    "Kasa.Emeter.C27_absent_partial",
    "Kasa.Emeter.C27_as_reported",
    "Kasa.Emeter.C27_unknown",
    "Kasa.Emeter.C27_lookalike",
    "Kasa.Emeter.C27_null",
    "Kasa.Emeter.C27_smart",
    "Kasa.Emeter.C27_smart_status"
   ],
   "note": "Proved for answers in which no other key begins like the quantity and no null stands; C27_lookalike, C27_null and C27_smart_status show what happens otherwise."
  },
  {
   "property": "C28",
   "status": "partial",
   "theorems": [
    "Kasa.Emeter.C28_stats",
    "Kasa.Emeter.C28_current",
    "Kasa.Emeter.C28_today_partial",
    "Kasa.Emeter.C28_earlier_month",
    "Kasa.Emeter.C28_usage",
    "Kasa.Emeter.C28_mixed"
   ],
   "note": "Proved for lists read in the current month; after a change of month the old list is used (C28_earlier_month). A list mixing units raises KeyError (C28_mixed)."
  },
  {
   "property": "C29",
   "status": "partial",
   "theorems": [
    "Kasa.Lights.C29_default_state",
    "Kasa.Lights.C29_hsv",
    "Kasa.Lights.C29_color_temp_partial",
    "Kasa.Lights.C29_brightness",
    "Kasa.Lights.C29_state_partial",
    "Kasa.Lights.C29_state_unchecked",
    "Kasa.Lights.C29_nan",
    "Kasa.Lights.C29_zero_sent",
    "Kasa.Lights.C29_dimmer",
    "Kasa.Lights.C29_dimmer_refused",
    "Kasa.Lights.C29_dimmer_brightness",
    "Kasa.Lights.C29_smart_brightness",
    "Kasa.Lights.C29_effect_brightness",
    "Kasa.Lights.C29_smart_hsv",
    "Kasa.Lights.C29_smart_color_temp_partial",
    "Kasa.Lights.C29_smart_temp_brightness",
    "Kasa.Lights.C29_smart_state_partial",
    "Kasa.Lights.C29_smart_state_unchecked",
    "Kasa.Lights.C29_smart_state_contradiction"
   ],
   "note": "Proved for the single setters; setting a whole state checks nothing but a legacy bulb's brightness (C29_state_unchecked, C29_smart_state_unchecked), NaN passes as a colour temperature (C29_nan), brightness 0 beside a colour is sent (C29_zero_sent), the brightness beside a newer light's colour temperature is unchecked (C29_smart_temp_brightness)."
  },
  {
   "property": "C30",
   "status": "partial",
   "theorems": [
    "Kasa.Feature.C30_read_only",
    "Kasa.Feature.C30_number_partial",
    "Kasa.Feature.C30_default_limits",
    "Kasa.Feature.C30_choice",
    "Kasa.Feature.C30_action",
    "Kasa.Feature.C30_nan",
    "Kasa.Feature.C30_range_kept",
    "Kasa.Feature.C30_stale_range"
   ],
   "note": "Proved except for NaN, which every range lets through (C30_nan). The range is the one first read (C30_range_kept, C30_stale_range)."
  },
  {
   "property": "C31",
   "status": "proved",
   "theorems": [
    "Kasa.SmartDevice.C31_device",
    "Kasa.SmartDevice.C31_child",
    "Kasa.SmartModule.C31_queries",
    "Kasa.SmartModule.C31_backoff",
    "Kasa.SmartModule.C31_recovers"
   ],
   "note": "Histories of updates, first updates and commands at arbitrary positive times; whether a module can use its data is an arbitrary outcome. Whole devices and children act on their modules by these events (C31_device, C31_child)."
  },
  {
   "property": "C32",
   "status": "partial",
   "theorems": [
    "Kasa.SmartModule.C32_command_partial",
    "Kasa.SmartModule.C32_disabled"
   ],
   "note": "False of a module given up after ten failures (C32_disabled); proved for all others."
  },
  {
   "property": "C33",
   "status": "proved",
   "theorems": [
    "Kasa.CamDevice.C33_cam_fallback",
    "Kasa.CamDevice.C33_cam_combined",
    "Kasa.SmartDevice.C33_request",
    "Kasa.SmartDevice.C33_fallback",
    "Kasa.SmartDevice.C33_combined",
    "Kasa.SmartDevice.C33_reading",
    "Kasa.SmartDevice.C33_info"
   ],
   "note": "For every failure pattern of the individual queries that consists of ordinary exceptions; a later update also raises if the device info is among what failed (C33_info)."
  },
  {
   "property": "C34",
   "status": "partial",
   "theorems": [
    "Kasa.SmartDevice.C34_empty_request",
    "Kasa.SmartDevice.C34_stuck",
    "Kasa.SmartDevice.C34_interrupted_partial"
   ],
   "note": "False: after a first query that fails, every later update raises (C34_stuck, with C34_empty_request). Proved for interruptions in the query of the modules, with a device that answers consistently (C34_interrupted_partial)."
  },
  {
   "property": "C35",
   "status": "proved",
   "theorems": [
    "Kasa.SmartDevice.C35_lists",
    "Kasa.SmartDevice.C35_update"
   ],
   "note": "For every world and every list; creation of a child is a parameter, ids that are not strings count as missing."
  },
  {
   "property": "C36",
   "status": "partial",
   "theorems": [
    "Kasa.SmartDevice.C36_queried_partial",
    "Kasa.SmartDevice.C36_lost"
   ],
   "note": "False: an update that queries some modules of a child discards the data of the others (C36_lost). Proved for the modules that were queried and for updates that query nothing (C36_queried_partial)."
  },
  {
   "property": "C37",
   "status": "partial",
   "theorems": [
    "Kasa.OnSince.C37_off",
    "Kasa.OnSince.C37_off_device",
    "Kasa.OnSince.C37_close_partial",
    "Kasa.OnSince.C37_history_partial",
    "Kasa.OnSince.C37_stable",
    "Kasa.OnSince.C37_new",
    "Kasa.OnSince.C37_stale"
   ],
   "note": "Proved for histories in which the computed time does not go back; if it does the stale value is kept (C37_stale)."
  },
  {
   "property": "C38",
   "status": "partial",
   "theorems": [
    "Kasa.Presets.C38_names",
    "Kasa.Presets.C38_save_partial",
    "Kasa.Presets.C38_wrong_slot",
    "Kasa.Presets.C38_unknown",
    "Kasa.Presets.C38_round_trip_partial",
    "Kasa.Presets.C38_choose",
    "Kasa.Presets.C38_not_set",
    "Kasa.Presets.C38_smart_save_partial",
    "Kasa.Presets.C38_smart_wrong_slot",
    "Kasa.Presets.C38_smart_brightness",
    "Kasa.Presets.C38_smart_mixed",
    "Kasa.Presets.C38_current"
   ],
   "note": "Proved for lists with no effect stored before the preset; otherwise a lower slot is written (C38_wrong_slot, C38_smart_wrong_slot), and on newer lights one preset without a colour makes every save drop colours (C38_smart_mixed)."
  },
  {
   "property": "C39",
   "status": "partial",
   "theorems": [
    "Kasa.Alarm.C39_volume_partial",
    "Kasa.Alarm.C39_volume_number",
    "Kasa.Alarm.C39_duration",
    "Kasa.Alarm.C39_sound",
    "Kasa.Alarm.C39_play",
    "Kasa.Alarm.C39_camera",
    "Kasa.Alarm.C39_camera_volume",
    "Kasa.Alarm.C39_camera_play"
   ],
   "note": "Proved except for volumes given to set_alarm_volume by number, which are sent as numbers (C39_volume_number), and NaN durations, which pass."
  },
  {
   "property": "C40",
   "status": "partial",
   "theorems": [
    "Kasa.Consumables.C40_single_partial",
    "Kasa.Consumables.C40_shared",
    "Kasa.Consumables.C40_missing",
    "Kasa.Consumables.C40_extra",
    "Kasa.Consumables.C40_reset"
   ],
   "note": "False as stated: the dict belongs to the class (C40_shared, C40_missing, C40_extra). C40_single_partial is the claim for a process with a single vacuum."
  },
  {
   "property": "C41",
   "status": "proved",
   "theorems": [
    "Kasa.Feature.C41_child",
    "Kasa.Feature.C41_by_name",
    "Kasa.Feature.C41_by_index"
   ],
   "note": ""
  },
  {
   "property": "C42",
   "status": "partial",
   "theorems": [
    "Kasa.Http.C42_after_settled",
    "Kasa.Http.C42_spaced_partial",
    "Kasa.Http.C42_no_delay",
    "Kasa.Http.C42_delay_bound",
    "Kasa.Http.C42_unspaced"
   ],
   "note": "False: a request that fails fast in another way does not keep the next one back (C42_unspaced). Proved for requests that were answered, ended with a connection error, or took at least the interval (C42_spaced_partial). The calls of a client follow each other; times are exact."
  },
  {
   "property": "C43",
   "status": "proved",
   "theorems": [
    "Kasa.Time.C43_round_trip",
    "Kasa.Time.C43_above",
    "Kasa.Time.C43_negative",
    "Kasa.Time.C43_lookup",
    "Kasa.Time.C43_found",
    "Kasa.Time.C43_above_again",
    "Kasa.Time.C43_unsupported",
    "Kasa.Time.C43_unsupported_offset",
    "Kasa.Time.C43_matching"
   ],
   "note": "For every comparison of zones. Negative indices raise (C43_negative); a zone that is no ZoneInfo and has no counterpart raises the wrong error (C43_unsupported_offset)."
  },
  {
   "property": "C44",
   "status": "proved",
   "theorems": [
    "Kasa.DeviceInfo.C44_kind",
    "Kasa.DeviceInfo.C44_defined",
    "Kasa.DeviceInfo.C44_kept",
    "Kasa.DeviceInfo.C44_child",
    "Kasa.DeviceInfo.C44_camera"
   ],
   "note": "The table of the precedence is in Spec/DeviceInfo.lean."
  },
  {
   "property": "C45",
   "status": "partial",
   "theorems": [
    "Kasa.SmartModule.C45_no_data",
    "Kasa.SmartModule.C45_error",
    "Kasa.SmartModule.C45_answers_partial",
    "Kasa.SmartModule.C45_lone_answer",
    "Kasa.SmartModule.C45_camera",
    "Kasa.SmartModule.C45_camera_several",
    "Kasa.SmartModule.C45_legacy"
   ],
   "note": "False when only some of several queries have an entry at all (C45_lone_answer); proved when all have one."
  },
  {
   "property": "C46",
   "status": "partial",
   "theorems": [
    "Kasa.Setters.C46_transition_partial",
    "Kasa.Setters.C46_transition_other",
    "Kasa.Setters.C46_transition_limit",
    "Kasa.Setters.C46_transitions",
    "Kasa.Setters.C46_fan_partial",
    "Kasa.Setters.C46_target_partial",
    "Kasa.Setters.C46_offset_partial",
    "Kasa.Setters.C46_protection_partial",
    "Kasa.Setters.C46_protection_enable",
    "Kasa.Setters.C46_threshold_partial",
    "Kasa.Setters.C46_nan",
    "Kasa.Setters.C46_threshold_type",
    "Kasa.Setters.C46_auto_off",
    "Kasa.Setters.C46_dimmer_partial",
    "Kasa.Setters.C46_dimmer_times",
    "Kasa.Setters.C46_dimmer_limits"
   ],
   "note": "Proved except for NaN (C46_nan) and non-numbers that count as false as a power threshold (C46_threshold_type)."
  },
  {
   "property": "C47",
   "status": "proved",
   "theorems": [
    "Kasa.SmartCam.C47_get_name",
    "Kasa.SmartCam.C47_set_name",
    "Kasa.SmartCam.C47_error_raises",
    "Kasa.SmartCam.C47_answer_filed",
    "Kasa.SmartCam.C47_raw_batch",
    "Kasa.SmartCam.C47_raw_section",
    "Kasa.SmartCam.C47_empty_section_raises",
    "Kasa.SmartCam.C47_one_method_no_error_entry",
    "Kasa.SmartCam.C47_success_without_section_escapes",
    "Kasa.SmartCam.C47_empty_answer_escapes"
   ],
   "note": "Filing, naming and error raising proved for every device; two empty answers escape as KeyError/RuntimeError (witnesses)."
  },
  {
   "property": "C48",
   "status": "proved",
   "theorems": [
    "Kasa.Feature.C48_unique",
    "Kasa.Feature.C48_duplicate"
   ],
   "note": ""
  },
  {
   "property": "C49",
   "status": "proved",
   "theorems": [
    "Kasa.SslAes.C49_digest",
    "Kasa.SslAes.C49_md5"
   ],
   "note": ""
  },
  {
   "property": "C50",
   "status": "partial",
   "theorems": [
    "Kasa.Discover.C50_no_protocol",
    "Kasa.Factory.C50_class",
    "Kasa.Factory.C50_class_protocol_partial",
    "Kasa.Factory.C50_mismatch"
   ],
   "note": "Proved for all combinations but the ones listed in `mismatched` (C50_mismatch proves those wrong); a legacy answer can give a device without protocol (C50_no_protocol)."
  },
  {
   "property": "C51",
   "status": "partial",
   "theorems": [
    "Kasa.Cli.C51_options",
    "Kasa.Connect.C51_closed",
    "Kasa.Connect.C51_returned",
    "Kasa.Connect.C51_tries_all_partial",
    "Kasa.Connect.C51_login_version"
   ],
   "note": "False of the login version: the loop writes versions None and 2, but both share a key, so the second takes the place of the first. C51_login_version proves that whatever is tried is tried with version 2; C51_tries_all_partial proves the rest. A device that wants the AES login without version 2 is therefore never found. C51_options proves the claim about the printed options: they name no login version, but only version 2 is ever found, which is what the command line assumes."
  },
  {
   "property": "C52",
   "status": "partial",
   "theorems": [
    "Kasa.Discover.C52_closed_partial",
    "Kasa.Discover.C52_returned",
    "Kasa.Discover.C52_left_open",
    "Kasa.Discover.C52_close_fails"
   ],
   "note": "Proved for library errors and cancellation if closing works; other errors leave every device open (C52_left_open) and a failing close leaves the rest open (C52_close_fails)."
  },
  {
   "property": "C53",
   "status": "proved",
   "theorems": [
    "Kasa.Iot.C53_failed_update",
    "Kasa.Iot.C53_first_update"
   ],
   "note": "C53_failed_update and C53_first_update quantify over every environment of answers; the failing request may be any of them."
  },
  {
   "property": "C54",
   "status": "partial",
   "theorems": [
    "Kasa.Emeter.C54_sums",
    "Kasa.Emeter.C54_stats",
    "Kasa.Emeter.C54_status_partial",
    "Kasa.Emeter.C54_truncate",
    "Kasa.Emeter.C54_consumption",
    "Kasa.Emeter.C54_voltage"
   ],
   "note": "Sums and means proved; sockets reporting volts or no voltage make the strip report 0 mV (C54_voltage)."
  },
  {
   "property": "C55",
   "status": "partial",
   "theorems": [
    "Kasa.Feature.C55_partial",
    "Kasa.Feature.C55_stale"
   ],
   "note": "Proved if nothing is asked before the features are registered; an earlier answer is cached for good (C55_stale)."
  },
  {
   "property": "C56",
   "status": "partial",
   "theorems": [
    "Kasa.DeviceInfo.C56_camera_child",
    "Kasa.DeviceInfo.C56_camera_child_new",
    "Kasa.DeviceInfo.C56_camera_child_names",
    "Kasa.DeviceInfo.C56_camera_child_kind",
    "Kasa.DeviceInfo.C56_firmware",
    "Kasa.DeviceInfo.C56_smart_partial",
    "Kasa.DeviceInfo.C56_legacy",
    "Kasa.DeviceInfo.C56_camera",
    "Kasa.DeviceInfo.C56_dots",
    "Kasa.DeviceInfo.C56_mapped",
    "Kasa.DeviceInfo.C56_camera_names"
   ],
   "note": "Devices of types with other than one dot raise ValueError (C56_dots); Python's str.lower is a parameter. A camera behind a hub raises KeyError for everything until the hub tells of it again after it was made (C56_camera_child_new)."
  },
  {
   "property": "C57",
   "status": "partial",
   "theorems": [
    "Kasa.DeviceInfo.C57_separated",
    "Kasa.DeviceInfo.C57_plain",
    "Kasa.DeviceInfo.C57_missing",
    "Kasa.DeviceInfo.C57_smart_partial",
    "Kasa.DeviceInfo.C57_smart_missing"
   ],
   "note": "SMART devices without an address report the text None (C57_smart_missing)."
  },
  {
   "property": "C58",
   "status": "partial",
   "theorems": [
    "Kasa.Http.C58_answer",
    "Kasa.Http.C58_own_exceptions",
    "Kasa.Http.C58_kinds_partial",
    "Kasa.Http.C58_timeout_missed"
   ],
   "note": "False of the limit for the whole request: it is not reported as a time-out (C58_timeout_missed); proved for all other faults (C58_kinds_partial)."
  },
  {
   "property": "C59",
   "status": "partial",
   "theorems": [
    "Kasa.Time.C59_legacy_partial",
    "Kasa.Time.C59_legacy_naive",
    "Kasa.Time.C59_legacy_zone_lost",
    "Kasa.Time.C59_smart_instant",
    "Kasa.Time.C59_smart_zone",
    "Kasa.Time.C59_smart_offset",
    "Kasa.Time.C59_smart_naive",
    "Kasa.Time.C59_smart_old_region",
    "Kasa.Time.C59_camera_instant",
    "Kasa.Time.C59_camera_local_partial",
    "Kasa.Time.C59_camera_host_time",
    "Kasa.Time.C59_same_zone",
    "Kasa.Time.C59_legacy_offsets_partial",
    "Kasa.Time.C59_zone_found",
    "Kasa.Time.C59_hours_counterexample",
    "Kasa.Time.C59_leap_counterexample"
   ],
   "note": "Proved for legacy devices that report their zone (C59_legacy_partial), SMART devices with named zones or offsets of whole minutes, and cameras' instants. False: legacy devices without a zone (C59_legacy_zone_lost), nameless zones on SMART devices (C59_smart_old_region), cameras set from a computer in another zone (C59_camera_host_time). Zones of legacy devices are taken for the same exactly if they agree at noon of the days of the current year (C59_same_zone, C59_legacy_offsets_partial), so they may differ at other hours (C59_hours_counterexample) and on the last day of leap years (C59_leap_counterexample)."
  },
  {
   "property": "C60",
   "status": "proved",
   "theorems": [
    "Kasa.SmartDevice.C60_updated",
    "Kasa.SmartDevice.C60_spared"
   ],
   "note": "For every environment: answers, clock and modules are arbitrary."
  },
  {
   "property": "C61",
   "status": "proved",
   "theorems": [
    "Kasa.Ssl.C61_session",
    "Kasa.Ssl.C61_login",
    "Kasa.Ssl.C61_answer",
    "Kasa.Ssl.C61_once",
    "Kasa.Ssl.C61_recovers",
    "Kasa.Ssl.C61_foreign_errors"
   ],
   "note": "Device, network and clock are arbitrary environments; times are integers. Answers without a token or with unknown codes raise exceptions that are not the library's (C61_foreign_errors)."
  },
  {
   "property": "C62",
   "status": "partial",
   "theorems": [
    "Kasa.Linkie.C62_request",
    "Kasa.Linkie.C62_answer",
    "Kasa.Linkie.C62_succeeds",
    "Kasa.Linkie.C62_errors",
    "Kasa.Linkie.C62_plaintext_partial",
    "Kasa.Linkie.C62_lookalike"
   ],
   "note": "Network, TLS and the JSON parser are arbitrary. False of plain-text errors in general: characters outside the base64 alphabet are skipped, so some JSON texts decode (C62_lookalike); proved for texts that begin with {\"err_code\" (C62_plaintext_partial)."
  },
  {
   "property": "C63",
   "status": "proved",
   "theorems": [
    "Kasa.Names.C63_name",
    "Kasa.Names.C63_name_read",
    "Kasa.Names.C63_ssid_read",
    "Kasa.Names.C63_scan",
    "Kasa.Names.C63_join_refused",
    "Kasa.Names.C63_join",
    "Kasa.Names.C63_credentials",
    "Kasa.Names.C63_no_time",
    "Kasa.Names.C63_legacy_join",
    "Kasa.Names.C63_legacy_join_again",
    "Kasa.Names.C63_legacy_join_refused",
    "Kasa.Names.C63_legacy_scan",
    "Kasa.Names.C63_legacy_name",
    "Kasa.Names.C63_camera_name",
    "Kasa.Names.C63_scan_new_field"
   ],
   "note": "The empty name reads as no name on SMART devices. Devices without a reported time raise KeyError (C63_no_time); list entries with unknown fields raise TypeError (C63_scan_new_field)."
  },
  {
   "property": "C64",
   "status": "partial",
   "theorems": [
    "Kasa.LightEffects.C64_bulb_effects",
    "Kasa.LightEffects.C64_bulb_refused",
    "Kasa.LightEffects.C64_bulb_off",
    "Kasa.LightEffects.C64_bulb_select",
    "Kasa.LightEffects.C64_bulb_keeps_brightness",
    "Kasa.LightEffects.C64_bulb_after",
    "Kasa.LightEffects.C64_bulb_roundtrip_partial",
    "Kasa.LightEffects.C64_bulb_off_roundtrip",
    "Kasa.LightEffects.C64_bulb_name_lost",
    "Kasa.LightEffects.C64_bulb_stale",
    "Kasa.LightEffects.C64_tables",
    "Kasa.LightEffects.C64_strip_refused",
    "Kasa.LightEffects.C64_legacy_refused",
    "Kasa.LightEffects.C64_strip_select",
    "Kasa.LightEffects.C64_legacy_select",
    "Kasa.LightEffects.C64_strip_keeps_brightness",
    "Kasa.LightEffects.C64_strip_effect",
    "Kasa.LightEffects.C64_strip_custom_inactive",
    "Kasa.LightEffects.C64_strip_roundtrip",
    "Kasa.LightEffects.C64_strip_off",
    "Kasa.LightEffects.C64_legacy_off",
    "Kasa.LightEffects.C64_strip_off_roundtrip",
    "Kasa.LightEffects.C64_strip_brightness",
    "Kasa.LightEffects.C64_legacy_roundtrip"
   ],
   "note": "The round trip fails for bulbs whose effect has a user-given name that is itself readable as base64: set_effect hands the decoded name back to the bulb without encoding it (C64_bulb_name_lost: an effect named 'glow' breaks the module after set_effect). C64_bulb_roundtrip_partial covers the names that read as themselves; C64_bulb_after says what is shown in general. A custom effect of a strip is reported as the effect but as not active (C64_strip_custom_inactive). The list of a bulb is fetched once a day; an effect added since makes the hook fail (C64_bulb_stale)."
  },
  {
   "property": "C65",
   "status": "proved",
   "theorems": [
    "Kasa.Firmware.C65_refused",
    "Kasa.Firmware.C65_not_started",
    "Kasa.Firmware.C65_watched",
    "Kasa.Firmware.C65_returns",
    "Kasa.Firmware.C65_check",
    "Kasa.Firmware.C65_failed_check",
    "Kasa.Firmware.C65_not_raised"
   ],
   "note": "A failed update, and a device that is still idle half a second after the request, are returned as a normal result, not raised (C65_not_raised)."
  },
  {
   "property": "C66",
   "status": "proved",
   "theorems": [
    "Kasa.LightReading.C66_bulb_step",
    "Kasa.LightReading.C66_bulb_reads",
    "Kasa.LightReading.C66_bulb_history",
    "Kasa.LightReading.C66_smart_step",
    "Kasa.LightReading.C66_smart_reads",
    "Kasa.LightReading.C66_smart_history",
    "Kasa.LightReading.C66_dimmer_step",
    "Kasa.LightReading.C66_dimmer_reads",
    "Kasa.LightReading.C66_dimmer_history",
    "Kasa.LightReading.C66_dimmer_stale"
   ],
   "note": "The devices are specified in Spec/LightReading.lean: they store the parameters of their command. Without an update in between, turn_on with a transition takes a dimmer back to the brightness of the last update (C66_dimmer_stale). set_brightness switches legacy lights on but not newer ones; the specification says so."
  },
  {
   "property": "C67",
   "status": "partial",
   "theorems": [
    "Kasa.Speaker.C67_volume_partial",
    "Kasa.Speaker.C67_volume_nan_counterexample",
    "Kasa.Speaker.C67_speaker",
    "Kasa.Vacuum.C67_status",
    "Kasa.Vacuum.C67_error_taken",
    "Kasa.Vacuum.C67_start_partial",
    "Kasa.Vacuum.C67_pause_partial",
    "Kasa.Vacuum.C67_home",
    "Kasa.Vacuum.C67_pause_start",
    "Kasa.Vacuum.C67_restarts",
    "Kasa.Vacuum.C67_pause_ignored",
    "Kasa.Vacuum.C67_refused",
    "Kasa.Vacuum.C67_numbers",
    "Kasa.Vacuum.C67_others",
    "Kasa.Vacuum.C67_step",
    "Kasa.Vacuum.C67_history",
    "Kasa.Vacuum.C67_water_undoes_fan",
    "Kasa.Vacuum.C67_last_clean",
    "Kasa.Vacuum.C67_records_once"
   ],
   "note": "Partial: the claims about start and pause are false of a robot that shows an error (C67_restarts: it starts from the beginning; C67_pause_ignored: it drives on), because the library then takes its status to be Error. Without an update in between, set_waterlevel undoes a fan speed set since (C67_water_undoes_fan). The hooks of Clean and CleanRecords rewrite the data they read: a second run on the same data shows the next error (C67_error_taken) or raises KeyError (C67_records_once). NaN is sent as a volume (C67_volume_nan_counterexample)."
  },
  {
   "property": "C68",
   "status": "proved",
   "theorems": [
    "Kasa.Camera.C68_shown",
    "Kasa.Camera.C68_unavailable",
    "Kasa.Camera.C68_others",
    "Kasa.Camera.C68_step",
    "Kasa.Camera.C68_history",
    "Kasa.Camera.C68_power",
    "Kasa.Camera.C68_motor",
    "Kasa.Camera.C68_motor_undo",
    "Kasa.Camera.C68_always_charging"
   ],
   "note": "The camera is specified as a store of sections with a table of methods. Beyond the claim, battery_charging is shown to be true for every camera that reports its voltage as a number, whatever it reports about charging (C68_always_charging)."
  },
  {
   "property": "C69",
   "status": "partial",
   "theorems": [
    "Kasa.Thermostat.C69_mode",
    "Kasa.Thermostat.C69_state",
    "Kasa.Thermostat.C69_battery_partial",
    "Kasa.Thermostat.C69_low_battery",
    "Kasa.Thermostat.C69_step",
    "Kasa.Thermostat.C69_history",
    "Kasa.Thermostat.C69_others",
    "Kasa.Thermostat.C69_thermostat",
    "Kasa.Thermostat.C69_thermostat_features",
    "Kasa.Thermostat.C69_frost_minimum_counterexample"
   ],
   "note": "Partial: a low battery does make a difference to a thermostat that reports nothing else (C69_low_battery: it is shown as unknown instead of idle). The minimum temperature of frost protection cannot be read (C69_frost_minimum_counterexample): the module asks for nothing. NaN passes the range checks (see C46) and is excluded from the history."
  },
  {
   "property": "C70",
   "status": "proved",
   "theorems": [
    "Kasa.JsonText.C70_round_trip",
    "Kasa.JsonText.C70_injective",
    "Kasa.JsonText.C70_legacy_wire",
    "Kasa.JsonText.C70_config",
    "Kasa.JsonText.C70_truncated",
    "Kasa.JsonText.C70_trailing",
    "Kasa.JsonText.C70_no_bound",
    "Kasa.JsonText.C70_one_line",
    "Kasa.JsonText.C70_escape",
    "Kasa.JsonText.C70_bad_escape"
   ],
   "note": "The writer and the reader are models of orjson and of Python's json module, which are not in the repository; the assumption on them is that they are these functions. Floats, orjson's limits (64-bit integers, depth) and lone surrogates are left out. Discharges, for these libraries, the assumption of other properties that loads undoes dumps."
  },
  {
   "property": "C71",
   "status": "partial",
   "theorems": [
    "Kasa.Stream.C71_url",
    "Kasa.Stream.C71_credentials_partial",
    "Kasa.Stream.C71_space",
    "Kasa.Stream.C71_injective",
    "Kasa.Stream.C71_when",
    "Kasa.Stream.C71_hash",
    "Kasa.Stream.C71_hash_kept",
    "Kasa.Stream.C71_hash_lost",
    "Kasa.Stream.C71_foreign_hash"
   ],
   "note": "Partial: credentials with a space are escaped as in a form, and stand for other credentials in a URL (C71_space). A hash that decodes to something else than an object raises AttributeError (C71_foreign_hash), and a transport made with empty credentials and a hash loses the hash (C71_hash_lost). The documentation says that there is no address while the camera is off; the code does not look at that."
  },
  {
   "property": "C72",
   "status": "partial",
   "theorems": [
    "Kasa.ChildSetup.C72_requests",
    "Kasa.ChildSetup.C72_result",
    "Kasa.ChildSetup.C72_pair",
    "Kasa.ChildSetup.C72_unpair",
    "Kasa.ChildSetup.C72_history",
    "Kasa.ChildSetup.C72_reported_partial",
    "Kasa.ChildSetup.C72_unknown",
    "Kasa.ChildSetup.C72_again",
    "Kasa.ChildSetup.C72_no_model"
   ],
   "note": "Partial: a device the library does not support is paired but not reported (C72_unknown); a device that was a child before and was not taken on again is reported as added (C72_again); a scan that does not name the model makes pairing raise KeyError after the device was paired, because of a log text (C72_no_model). The categories named in the requests are a parameter."
  },
  {
   "property": "C73",
   "status": "partial",
   "theorems": [
    "Kasa.Motion.C73_triggered_partial",
    "Kasa.Motion.C73_percent_partial",
    "Kasa.Motion.C73_odd",
    "Kasa.Motion.C73_not_zero",
    "Kasa.Motion.C73_division",
    "Kasa.Motion.C73_names",
    "Kasa.Motion.C73_shown",
    "Kasa.Motion.C73_history",
    "Kasa.Motion.C73_unsupported",
    "Kasa.Motion.C73_latest",
    "Kasa.Motion.C73_light"
   ],
   "note": "Partial: proved for sensors whose readings go from 0 to an even number. An odd greatest reading (4095 on the devices) counts as more than 100 percent (C73_odd), a lowest reading other than 0 puts the middle in the wrong place (C73_not_zero), and a side without extent raises ZeroDivisionError (C73_division). A range the device has no threshold for is not refused and makes everything unreadable (C73_unsupported). Percentages are exact in the model, floats are rounded in the code."
  },
  {
   "property": "C74",
   "status": "partial",
   "theorems": [
    "Kasa.Settings.C74_fields",
    "Kasa.Settings.C74_history_partial",
    "Kasa.Settings.C74_shown",
    "Kasa.Settings.C74_undone",
    "Kasa.Settings.C74_other_undone"
   ],
   "note": "Partial: proved for histories in which, of auto off and its delay and of power protection and its threshold, no second one is set before the next update. Without the update the earlier one is undone (C74_undone), and a change another client made to the LED settings is undone by switching the LED (C74_other_undone). The device is assumed to store the fields it is sent."
  },
  {
   "property": "C75",
   "status": "proved",
   "theorems": [
    "Kasa.EndToEnd.C75_klap_once",
    "Kasa.EndToEnd.C75_queries_once",
    "Kasa.EndToEnd.C75_query_result",
    "Kasa.EndToEnd.C75_setter",
    "Kasa.EndToEnd.C75_klap_reliable"
   ],
   "note": "Assumed of the network: only the device answers with status 200. The device follows the KLAP protocol, refuses sequence numbers that are not higher than the last, and forgets its session on restart. Results of queries are for devices whose answers do not depend on their state and hold no pages; setters for single idempotent requests. Proved for the KLAP transport."
  },
  {
   "property": "C76",
   "status": "proved",
   "theorems": [
    "Kasa.LegacyEndToEnd.C76_legacy_once",
    "Kasa.LegacyEndToEnd.C76_legacy_query",
    "Kasa.LegacyEndToEnd.C76_setter",
    "Kasa.LegacyEndToEnd.C76_legacy_reliable"
   ],
   "note": "A request is carried out before the next one is sent, or never: a device that still works on a request from a closed connection while a new one comes in is not covered."
  },
  {
   "property": "C77",
   "status": "partial",
   "theorems": [
    "Kasa.Features.C77_smart_partial",
    "Kasa.Features.C77_legacy",
    "Kasa.Features.C77_camera",
    "Kasa.Features.C77_smart_lost",
    "Kasa.Features.C77_smart_clash_lost",
    "Kasa.Features.C77_legacy_lost",
    "Kasa.Features.C77_camera_stuck",
    "Kasa.Features.C77_legacy_shown",
    "Kasa.Features.C77_camera_shown",
    "Kasa.Features.C77_smart_shown_partial",
    "Kasa.Features.C77_volume_hidden",
    "Kasa.Features.C77_usable"
   ],
   "note": "False of the code in three ways. Ids: a child lock next to child protection, a thermostat that reports device_on and a vacuum cleaner with a battery sensor give two features one id, so the first update raises (C77_smart_partial says exactly when). Names: the volume of the alarm and its level are both called Alarm volume, so only the level is shown (C77_volume_hidden). Failures: features are only set up while there are none, so whatever a failed first update has not registered is missing for good (C77_smart_lost, C77_smart_clash_lost, C77_legacy_lost), and a camera whose device information cannot be read at first raises at every later update (C77_camera_stuck). For legacy devices and cameras ids and names are proved without exception."
  },
  {
   "property": "C78",
   "status": "proved",
   "theorems": [
    "Kasa.AesEndToEnd.C78_aes_once",
    "Kasa.AesEndToEnd.C78_queries_once",
    "Kasa.AesEndToEnd.C78_query_result",
    "Kasa.AesEndToEnd.C78_setter",
    "Kasa.AesEndToEnd.C78_aes_reliable",
    "Kasa.AesEndToEnd.C78_setter_works"
   ],
   "note": "Assumptions: answers with status 200 come from the device, refusals with status 200 carry an error code, RSA decryption inverts encryption, and a request is carried out before the next one is sent or never. Clock and logs are those of C13."
  },
  {
   "property": "C79",
   "status": "partial",
   "theorems": [
    "Kasa.CamDevice.C79_children",
    "Kasa.CamDevice.C79_silent_child",
    "Kasa.CamDevice.C79_own_info",
    "Kasa.CamDevice.C79_known_partial"
   ],
   "note": "The last sentence is false: C79_silent_child proves that a new sensor that does not answer its first query makes every update of the hub fail, since the variable that should hold the answer has no value. C79_known_partial proves it for hubs all of whose listed children were updated before, by comparing two surroundings that differ only in the children's answers."
  },
  {
   "property": "C80",
   "status": "partial",
   "theorems": [
    "Kasa.Cli.C80_refused",
    "Kasa.Cli.C80_host",
    "Kasa.Cli.C80_alias_partial",
    "Kasa.Cli.C80_command",
    "Kasa.Cli.C80_status_partial",
    "Kasa.Cli.C80_failure",
    "Kasa.Cli.C80_credentials_partial",
    "Kasa.Cli.C80_settings",
    "Kasa.Cli.C80_typical",
    "Kasa.Cli.C80_alias_ignored",
    "Kasa.Cli.C80_alias_unknown",
    "Kasa.Cli.C80_abort",
    "Kasa.Cli.C80_credentials_dropped",
    "Kasa.Cli.C80_hash_dropped",
    "Kasa.Cli.C80_update_leak"
   ],
   "note": "Partial because several clauses are false, each shown by a witness: --alias is ignored when --type is given (C80_alias_ignored); an unknown alias still runs the command, without a device, or exits with zero (C80_alias_unknown); a declined or aborted question exits with zero (C80_abort); legacy --type drops the credentials and discovery drops the credentials hash (C80_credentials_dropped, C80_hash_dropped); a device whose first update fails is not closed (C80_update_leak). The _partial theorems carry exactly those exceptions."
  },
  {
   "property": "C81",
   "status": "partial",
   "theorems": [
    "Kasa.Cli.C81_found",
    "Kasa.Cli.C81_not_found",
    "Kasa.Cli.C81_first",
    "Kasa.Cli.C81_once",
    "Kasa.Cli.C81_ends_partial",
    "Kasa.Cli.C81_hangs",
    "Kasa.Cli.C81_not_retried"
   ],
   "note": "C81_ends_partial: the search ends if no discovery raises. C81_hangs proves that it never ends when discovery raises and no device asked before shows the alias, as the event is then never set. C81_not_retried: a device whose update fails in the first round is not asked in the second. The search makes two rounds although three attempts are configured."
  },
  {
   "property": "C82",
   "status": "partial",
   "theorems": [
    "Kasa.CliChild.C82_parent",
    "Kasa.CliChild.C82_child",
    "Kasa.CliChild.C82_unique",
    "Kasa.CliChild.C82_reported_partial",
    "Kasa.CliChild.C82_prompt_aborted",
    "Kasa.CliChild.C82_refused",
    "Kasa.CliChild.C82_update"
   ],
   "note": "C82_reported_partial: the exit status is nonzero except when the input of the prompt ends, which C82_prompt_aborted shows to exit with zero."
  },
  {
   "property": "C83",
   "status": "partial",
   "theorems": [
    "Kasa.CliCommand.C83_only_partial",
    "Kasa.CliCommand.C83_done_partial",
    "Kasa.CliCommand.C83_unsupported_partial",
    "Kasa.CliCommand.C83_works_partial",
    "Kasa.CliCommand.C83_confirmed",
    "Kasa.CliCommand.C83_schedule_list",
    "Kasa.CliCommand.C83_preset_temperature",
    "Kasa.CliCommand.C83_negative_index",
    "Kasa.CliCommand.C83_time_ignored",
    "Kasa.CliCommand.C83_behavior_ignored"
   ],
   "note": "Partial because of: negative preset indexes, which overwrite one preset with another (C83_negative_index); the temperature of a preset, which can never be modified (C83_preset_temperature); setting the time of a device without a time module, which does nothing and exits with zero (C83_time_ignored); turn-on-behavior without a type, likewise (C83_behavior_ignored); listing the rules, which always fails (C83_schedule_list)."
  },
  {
   "property": "C84",
   "status": "partial",
   "theorems": [
    "Kasa.CliCommand.C84_tool",
    "Kasa.CliCommand.C84_document_partial",
    "Kasa.CliCommand.C84_silent",
    "Kasa.CliCommand.C84_prints",
    "Kasa.CliCommand.C84_asks",
    "Kasa.CliCommand.C84_output"
   ],
   "note": "Missing are the commands that write directly or ask: C84_prints shows text before the document for cleaning records, consumables and logs, C84_asks for the questions. C84_silent: a failing command writes nothing at all, so the message of the error is lost."
  },
  {
   "property": "C85",
   "status": "proved",
   "theorems": [
    "Kasa.SslEndToEnd.C85_ssl_once",
    "Kasa.SslEndToEnd.C85_queries_once",
    "Kasa.SslEndToEnd.C85_query_result",
    "Kasa.SslEndToEnd.C85_setter",
    "Kasa.SslEndToEnd.C85_ssl_reliable",
    "Kasa.SslEndToEnd.C85_recovers",
    "Kasa.SslEndToEnd.C85_setter_works"
   ],
   "note": "Assumptions: answers with status 200 that report success come from the device, the device does not report success when it refuses a request, and a request is carried out before the next one is sent or never. TLS is not modelled. For the recovery, refusals carry an authentication error code and the program reports success."
  },
  {
   "property": "C86",
   "status": "proved",
   "theorems": [
    "Kasa.CamEndToEnd.C86_cam_once",
    "Kasa.CamEndToEnd.C86_queries_once",
    "Kasa.CamEndToEnd.C86_query_result",
    "Kasa.CamEndToEnd.C86_setter"
   ],
   "note": "Assumptions: answers with status 200 come from the camera, it does not report success when it refuses a request nor offer a secure login to a name it denies, and a request is carried out before the next one is sent or never. TLS is not modelled."
  },
  {
   "property": "C87",
   "status": "proved",
   "theorems": [
    "Kasa.AesEndToEnd.C87_aes_recovers",
    "Kasa.CamEndToEnd.C87_cam_reliable",
    "Kasa.CamEndToEnd.C87_recovers",
    "Kasa.CamEndToEnd.C87_setter_recovers",
    "Kasa.CamEndToEnd.C87_setter_works",
    "Kasa.EndToEnd.C87_klap_recovers",
    "Kasa.EndToEnd.C87_klap_exhausted",
    "Kasa.SslEndToEnd.C87_https_recovers"
   ],
   "note": "The camera refuses a request that is not valid with a documented retryable or authentication code. The user name that stored credentials bring must not be empty, and a camera with the less secure login must report success on requests (an error there is raised as such, C14). KLAP recovers with one retry unless the sequence numbers of the session are used up: C87_klap_exhausted proves that dead end, which lasts until the session expires. An AES device refuses a request with a status other than 200 or an error code other than LOGIN_ERROR."
  },
  {
   "property": "C88",
   "status": "proved",
   "theorems": [
    "Kasa.DiscoverTasks.C88_result",
    "Kasa.DiscoverTasks.C88_full_time",
    "Kasa.DiscoverTasks.C88_callbacks",
    "Kasa.DiscoverTasks.C88_one_callback",
    "Kasa.DiscoverTasks.C88_cancel",
    "Kasa.DiscoverTasks.C88_cancel_stops",
    "Kasa.DiscoverTasks.C88_target_stops",
    "Kasa.DiscoverTasks.C88_ends",
    "Kasa.DiscoverTasks.C88_final",
    "Kasa.DiscoverTasks.C88_silent",
    "Kasa.DiscoverTasks.C88_closed",
    "Kasa.DiscoverTasks.C88_late_device",
    "Kasa.DiscoverTasks.C88_cancel_lost",
    "Kasa.DiscoverTasks.C88_close_race",
    "Kasa.DiscoverTasks.C88_no_packets"
   ],
   "note": "Time is not modelled: a sleep ends when the search task next runs. Socket options and a failing sendto are not modelled. asyncio is modelled as far as tasks, gather and cancellation are concerned."
  },
  {
   "property": "C89",
   "status": "proved",
   "theorems": [
    "Kasa.HttpSessions.C89_given_session_kept",
    "Kasa.HttpSessions.C89_given_session_used",
    "Kasa.HttpSessions.C89_one_session",
    "Kasa.HttpSessions.C89_request_open",
    "Kasa.HttpSessions.C89_closed",
    "Kasa.HttpSessions.C89_close_in_flight",
    "Kasa.HttpSessions.C89_own_cookies",
    "Kasa.HttpSessions.C89_shared_cookies",
    "Kasa.HttpSessions.C89_undisturbed_cookies",
    "Kasa.HttpSessions.C89_shared_cookie_lost"
   ],
   "note": "The cookie jar of aiohttp is modelled by host and name; paths, domains and lifetimes of cookies are left out. Devices that share a session have different hosts. C89_shared_cookie_lost and C89_close_in_flight are the witnesses for the two exceptions that the statement names."
  },
  {
   "property": "C90",
   "status": "proved",
   "theorems": [
    "Kasa.EndToEnd.C90_klap_reads",
    "Kasa.EndToEnd.C90_klap_reads_back",
    "Kasa.EndToEnd.C90_klap_update",
    "Kasa.AesEndToEnd.C90_aes_reads",
    "Kasa.AesEndToEnd.C90_aes_reads_back",
    "Kasa.AesEndToEnd.C90_aes_update",
    "Kasa.SslEndToEnd.C90_https_reads",
    "Kasa.SslEndToEnd.C90_https_reads_back",
    "Kasa.SslEndToEnd.C90_https_update",
    "Kasa.LegacyEndToEnd.C90_legacy_reads",
    "Kasa.LegacyEndToEnd.C90_legacy_reads_back"
   ],
   "note": "Setting is a request that does the same when carried out twice, and is answered with success. Answers that come in pages are left out, as are cameras and children. That every method has an entry is claimed unless batches had been given up (batch size 1). The theorems on updates are about updates after the first one that are not cancelled. Nobody else changes the device in the meantime."
  },
  {
   "property": "C91",
   "status": "proved",
   "theorems": [
    "Kasa.LightNetwork.C91_klap",
    "Kasa.LightNetwork.C91_aes",
    "Kasa.LightNetwork.C91_https",
    "Kasa.LightNetwork.C91_last_operation",
    "Kasa.LightNetwork.C91_bulb"
   ],
   "note": "The device is any program that stores the settings it takes and reports them; which settings it takes is a parameter, and the calls are such that it takes them. No effect is active. Nobody else changes the light in the meantime. Legacy dimmers are left out. Numbers are integers: JSON texts with fractions are not modelled."
  },
  {
   "property": "C92",
   "status": "proved",
   "theorems": [
    "Kasa.ChildNetwork.C92_klap_others",
    "Kasa.ChildNetwork.C92_klap_reads_back",
    "Kasa.ChildNetwork.C92_klap_update",
    "Kasa.ChildNetwork.C92_aes_others",
    "Kasa.ChildNetwork.C92_aes_reads_back",
    "Kasa.ChildNetwork.C92_aes_update",
    "Kasa.ChildNetwork.C92_https_others",
    "Kasa.ChildNetwork.C92_https_reads_back",
    "Kasa.ChildNetwork.C92_https_update"
   ],
   "note": "The device is any program that hands what is addressed to a child to that child, or refuses with an error code; the children are any programs. Children of cameras, which use another envelope, are not included. Nobody else changes the child in the meantime. Numbers are integers: JSON texts with fractions are not modelled."
  },
  {
   "property": "C93",
   "status": "partial",
   "theorems": [
    "Kasa.IotReadings.C93_unheard",
    "Kasa.IotReadings.C93_told",
    "Kasa.IotReadings.C93_found",
    "Kasa.IotReadings.C93_updated",
    "Kasa.IotReadings.C93_modules_stay",
    "Kasa.IotReadings.C93_emeter",
    "Kasa.IotReadings.C93_found_no_modules",
    "Kasa.IotReadings.C93_strip_not_updated",
    "Kasa.IotReadings.C93_raises_partial"
   ],
   "note": "Partial because the claim is false of the code: a device found by the old broadcast but not updated has modules None, raises TypeError for its time, and a strip in that state says it is off and does nothing when it is switched off (proved for every such device). Divisions by 10000 are exact in the model; Python rounds them to a float. int() of a text is not modelled."
  },
  {
   "property": "C94",
   "status": "proved",
   "theorems": [
    "Kasa.CamNetwork.C94_reads_truly",
    "Kasa.CamNetwork.C94_reads_back",
    "Kasa.CamNetwork.C94_update_shows",
    "Kasa.CamNetwork.C94_switches",
    "Kasa.CamNetwork.C94_last_operation"
   ],
   "note": "The network and the camera are those of C86. Lists in pages are excluded from what is read. Updates are those after the first, with the batch size not lowered to 1 (then methods may be missing, see C06)."
  },
  {
   "property": "C95",
   "status": "partial",
   "theorems": [
    "Kasa.Deprecated.C95_energy",
    "Kasa.Deprecated.C95_light",
    "Kasa.Deprecated.C95_replaced",
    "Kasa.Deprecated.C95_missing",
    "Kasa.Deprecated.C95_other_names",
    "Kasa.Deprecated.C95_lost",
    "Kasa.Deprecated.C95_answers_partial",
    "Kasa.Deprecated.C95_answers_counterexample_range",
    "Kasa.Deprecated.C95_answers_counterexample_modules",
    "Kasa.Deprecated.C95_package"
   ],
   "note": "Partial: that asking for a name either gives a value or tells that there is no such attribute is false. hasattr(device, 'valid_temperature_range') raises KasaException on every device whose light has no colour temperature, and any module-based name raises it on a legacy device that was not updated. The listed name _deprecated_set_light_state never resolves on devices whose lights have no has_effects (C95_lost)."
  },
  {
   "property": "C96",
   "status": "partial",
   "theorems": [
    "Kasa.Listing.C96_listed",
    "Kasa.Listing.C96_feature_command",
    "Kasa.Listing.C96_state",
    "Kasa.Listing.C96_state_stops",
    "Kasa.Listing.C96_one_text",
    "Kasa.Listing.C96_value",
    "Kasa.Listing.C96_text",
    "Kasa.Listing.C96_choice",
    "Kasa.Listing.C96_invalid_partial",
    "Kasa.Listing.C96_invalid_counterexample",
    "Kasa.Listing.C96_category"
   ],
   "note": "Partial: only members of enumerations that are none of the choices are reported as invalid (C96_invalid_partial); a string that is none of the choices is shown as if nothing were chosen (C96_invalid_counterexample). The rest is proved."
  },
  {
   "property": "C97",
   "status": "partial",
   "theorems": [
    "Kasa.Sensors.C97_reported",
    "Kasa.Sensors.C97_battery_low_partial",
    "Kasa.Sensors.C97_battery_low_counterexample",
    "Kasa.Sensors.C97_overheated",
    "Kasa.Sensors.C97_warnings",
    "Kasa.Sensors.C97_water",
    "Kasa.Sensors.C97_time",
    "Kasa.Sensors.C97_auto_off",
    "Kasa.Sensors.C97_overloaded",
    "Kasa.Sensors.C97_cloud",
    "Kasa.Sensors.C97_offered"
   ],
   "note": "Partial: a low battery reported under the second name is not read if the device reports the first name as null; reading then raises (C97_battery_low_counterexample). The rest is proved."
  },
  {
   "property": "C98",
   "status": "partial",
   "theorems": [
    "Kasa.CliDiscover.C98_whole",
    "Kasa.CliDiscover.C98_so_far",
    "Kasa.CliDiscover.C98_ends",
    "Kasa.CliDiscover.C98_list",
    "Kasa.CliDiscover.C98_columns",
    "Kasa.CliDiscover.C98_detail_partial",
    "Kasa.CliDiscover.C98_detail_counterexample",
    "Kasa.CliDiscover.C98_detail_lost",
    "Kasa.CliDiscover.C98_counts",
    "Kasa.CliDiscover.C98_raw",
    "Kasa.CliDiscover.C98_closed_partial",
    "Kasa.CliDiscover.C98_closed_counterexample"
   ],
   "note": "Partial: if the update of a device raises anything but an AuthenticationError, `discover` does not show the device, and the search itself does not return, so that no numbers are printed (C98_detail_counterexample, C98_detail_lost); if disconnecting a device fails, the devices after it stay connected (C98_closed_counterexample). The rest is proved."
  },
  {
   "property": "C99",
   "status": "proved",
   "theorems": [
    "Kasa.DiscoverData.C99_decrypts",
    "Kasa.DiscoverData.C99_one_key",
    "Kasa.DiscoverData.C99_same_device",
    "Kasa.DiscoverData.C99_otherwise"
   ],
   "note": "RSA-OAEP, the block cipher, base64, UTF-8 and JSON are parameters with their round trips. C99_same_device assumes that the cryptography raises exceptions only, not interruptions."
  },
  {
   "property": "C100",
   "status": "partial",
   "theorems": [
    "Kasa.Rules.C100_shown_partial",
    "Kasa.Rules.C100_shown_counterexample",
    "Kasa.Rules.C100_total",
    "Kasa.Rules.C100_commands",
    "Kasa.Rules.C100_request",
    "Kasa.Rules.C100_cli_delete"
   ],
   "note": "Partial: a single rule that cannot be read (an unknown action or time, a missing field) hides all rules of the service (C100_shown_counterexample). The rest is proved."
  },
  {
   "property": "C101",
   "status": "partial",
   "theorems": [
    "Kasa.Meter.C101_daily",
    "Kasa.Meter.C101_monthly",
    "Kasa.Meter.C101_usage",
    "Kasa.Meter.C101_commands",
    "Kasa.Meter.C101_refused",
    "Kasa.Meter.C101_strip_daily",
    "Kasa.Meter.C101_strip_monthly",
    "Kasa.Meter.C101_strip_erase",
    "Kasa.Meter.C101_smart_status",
    "Kasa.Meter.C101_supports_each",
    "Kasa.Meter.C101_supports_legacy",
    "Kasa.Meter.C101_supports_shown",
    "Kasa.Meter.C101_supports_error",
    "Kasa.Meter.C101_supports_smart_partial",
    "Kasa.Meter.C101_supports_smart_counterexample",
    "Kasa.Meter.C101_supports_strip"
   ],
   "note": "Partial: `supports` of a newer device is not taken back when it stops reporting a voltage, that of a strip is constant, and a legacy meter answering an error makes the update raise KeyError (C101_supports_smart_counterexample, C101_supports_strip, C101_supports_error). The rest is proved."
  },
  {
   "property": "C102",
   "status": "partial",
   "theorems": [
    "Kasa.Behaviours.C102_read",
    "Kasa.Behaviours.C102_set_partial",
    "Kasa.Behaviours.C102_set_counterexample",
    "Kasa.Behaviours.C102_preset_counterexample",
    "Kasa.Behaviours.C102_orders_partial",
    "Kasa.Behaviours.C102_orders_counterexample",
    "Kasa.Behaviours.C102_action_counterexample",
    "Kasa.Behaviours.C102_told",
    "Kasa.Behaviours.C102_before_update"
   ],
   "note": "Partial, as the claim is false of the code: the behaviours are sent by the names `soft` and `hard`, while bulbs report them as `soft_on` and `hard_on`, so that a bulb that takes the names it reports never changes (C102_set_counterexample); changing the preset keeps the mode (C102_preset_counterexample); and with the documented enumerations dimmers are sent commands such as `set_ActionType.DoubleClick` (C102_orders_counterexample, C102_action_counterexample). Reading, the encoding of each behaviour, orders given as texts and the refusal before an update are proved."
  },
  {
   "property": "C103",
   "status": "partial",
   "theorems": [
    "Kasa.CliGroups.C103_tags",
    "Kasa.CliGroups.C103_legacy",
    "Kasa.CliGroups.C103_smart",
    "Kasa.CliGroups.C103_mistakes",
    "Kasa.CliGroups.C103_raw",
    "Kasa.CliGroups.C103_prints_partial",
    "Kasa.CliGroups.C103_prints_counterexample",
    "Kasa.CliGroups.C103_listed",
    "Kasa.CliGroups.C103_loaded",
    "Kasa.CliGroups.C103_help",
    "Kasa.CliGroups.C103_tool",
    "Kasa.CliGroups.C103_help_counterexample",
    "Kasa.CliGroups.C103_also_partial",
    "Kasa.CliGroups.C103_also_counterexample"
   ],
   "note": "Partial, as the claim is false of the code: without `rich`, answers lose lower case words in brackets, such as the list `[true]` (C103_prints_counterexample); the help leaves out `command`, `raw-command` and `shell` (C103_help_counterexample) and says of four commands that they are available in groups that do not have them (C103_also_counterexample). The rest is proved for all tables, commands and answers; what `rich` prints is not modelled."
  },
  {
   "property": "C104",
   "status": "partial",
   "theorems": [
    "Kasa.IotSetup.C104_modules_partial",
    "Kasa.IotSetup.C104_once",
    "Kasa.IotSetup.C104_switch_counterexample",
    "Kasa.IotSetup.C104_asked"
   ],
   "note": "Partial, as the claim is false of the code: a wall switch that does not report `dev_name` raises `KeyError` on its first update, and on all later ones has the modules of a plug without ever looking for a motion sensor (C104_switch_counterexample). For all other devices it is proved: C104_modules_partial, C104_once and C104_asked."
  },
  {
   "property": "C105",
   "status": "partial",
   "theorems": [
    "Kasa.SmartReadings.C105_shown_partial",
    "Kasa.SmartReadings.C105_before_counterexample",
    "Kasa.SmartReadings.C105_found_again_counterexample",
    "Kasa.SmartReadings.C105_signal_counterexample"
   ],
   "note": "Partial, as the claim is false of the code: before anything was heard a device is shown as switched off, at 0 degrees, with the id and address `None` (C105_before_counterexample); discovery replaces all that the device said, so that one that is on is shown as off (C105_found_again_counterexample); a signal of 0 is shown as none (C105_signal_counterexample). What was told last is shown: C105_shown_partial."
  },
  {
   "property": "C106",
   "status": "partial",
   "theorems": [
    "Kasa.IotCloud.C106_connected",
    "Kasa.IotCloud.C106_fields_counterexample",
    "Kasa.IotCloud.C106_requests_partial",
    "Kasa.IotCloud.C106_nothing_sent_counterexample"
   ],
   "note": "Partial, as the claim is false of the code: connect, disconnect and set_server only return a request and send nothing (C106_nothing_sent_counterexample), though the request is right (C106_requests_partial); a report lacking any one of ten fields makes the connection unreadable (C106_fields_counterexample). Complete reports are shown: C106_connected."
  }
 ]
}