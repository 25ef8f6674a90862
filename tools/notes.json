{
 "C06": "Holds for every device when batching is enabled; with batch size one the never-batched methods are silently dropped (C06_batch_size_one_drops) and a missing result is a KeyError.",
 "C08": "Holds for every list asked for in a batch; a list asked for again on its own is not paged (C08_requeried_list_truncated).",
 "C09": "Proved for every integer code of the protocol and the AES transport; the SSL transport escapes with ValueError on unknown codes, and unhashable JSON codes with TypeError.",
 "C10": "Proved for children that answer every method; unanswered methods are dropped and batch errors ignored (witnesses).",
 "C11": "Numbers, keys and round trip for every session and every history; an exhausted counter fails forever (C11_exhausted_stays_exhausted).",
 "C13": "KLAP: proved for every history. AES: proved except after a handshake answered with an unreadable session key, where the old session is used again (C13_aes_bad_key).",
 "C14": "Numbers and tags proved for every history; encryption proved until a less secure login has succeeded once, after which secure logins do not restore it (C14_downgrade).",
 "C15": "Proved: faithfulness outside sensitive keys, masking of the outermost sensitive key, non-interference, all four tables, full any-depth statement for flat tables, no input object modified (heap model). Missing: a sensitive key inside the value of another sensitive key; C15_nested_leak shows the legacy table prints a child's MAC address.",
 "C16": "Proved for every sequence of datagrams: the first datagram of a host alone decides, the callbacks run once, the three outcomes exclude each other. Missing: a first datagram that makes the library raise an exception that is not its own (C16_legacy_camera) leaves the host in none of them.",
 "C17": "Proved for every sequence of datagrams in which the first one from the target is readable. False when the host sends something from another port first (C17_unexpected_port) and when the answer yields a device without protocol (C17_no_protocol).",
 "C19": "Proved for every configuration with a timeout; a configuration with timeout None comes back with the default timeout (C19_no_timeout).",
 "C23": "Proved for answers in which dicts stand under target and command. C23_malformed: a number there leaves the library as TypeError, not KasaException.",
 "C24": "Proved for every record with a textual type and textual name; camera records raise KeyError (C24_camera) and a null name TypeError (C24_null_name).",
 "C47": "Filing, naming and error raising proved for every device; two empty answers escape as KeyError/RuntimeError (witnesses).",
 "C50": "Proved for all combinations but the ones listed in `mismatched` (C50_mismatch proves those wrong); a legacy answer can give a device without protocol (C50_no_protocol).",
 "C52": "Proved for library errors and cancellation if closing works; other errors leave every device open (C52_left_open) and a failing close leaves the rest open (C52_close_fails).",
 "C53": "C53_failed_update and C53_first_update quantify over every environment of answers; the failing request may be any of them.",
 "C26": "Proved for data of targets the strip had not read when its sockets were made (energy, usage); for the targets it had read the dicts are shared objects and a later update of one socket overwrites what the others report (C26_shared, C26_sibling_overwrites).",
 "C37": "Proved for histories in which the computed time does not go back; if it does the stale value is kept (C37_stale).",
 "C27": "Proved for answers in which no other key begins like the quantity and no null stands; C27_lookalike, C27_null and C27_smart_status show what happens otherwise.",
 "C28": "Proved for lists read in the current month; after a change of month the old list is used (C28_earlier_month). A list mixing units raises KeyError (C28_mixed).",
 "C54": "Sums and means proved; sockets reporting volts or no voltage make the strip report 0 mV (C54_voltage).",
 "C29": "Proved for the single setters; setting a whole state checks nothing but a legacy bulb's brightness (C29_state_unchecked, C29_smart_state_unchecked), NaN passes as a colour temperature (C29_nan), brightness 0 beside a colour is sent (C29_zero_sent), the brightness beside a newer light's colour temperature is unchecked (C29_smart_temp_brightness).",
 "C30": "Proved except for NaN, which every range lets through (C30_nan). The range is the one first read (C30_range_kept, C30_stale_range).",
 "C46": "Proved except for NaN (C46_nan) and non-numbers that count as false as a power threshold (C46_threshold_type).",
 "C55": "Proved if nothing is asked before the features are registered; an earlier answer is cached for good (C55_stale).",
 "C38": "Proved for lists with no effect stored before the preset; otherwise a lower slot is written (C38_wrong_slot, C38_smart_wrong_slot), and on newer lights one preset without a colour makes every save drop colours (C38_smart_mixed).",
 "C39": "Proved except for volumes given to set_alarm_volume by number, which are sent as numbers (C39_volume_number), and NaN durations, which pass.",
 "C40": "False as stated: the dict belongs to the class (C40_shared, C40_missing, C40_extra). C40_single_partial is the claim for a process with a single vacuum.",
 "C31": "Histories of updates, first updates and commands at arbitrary positive times; whether a module can use its data is an arbitrary outcome. Whole devices and children act on their modules by these events (C31_device, C31_child).",
 "C32": "False of a module given up after ten failures (C32_disabled); proved for all others.",
 "C44": "The table of the precedence is in Spec/DeviceInfo.lean.",
 "C45": "False when only some of several queries have an entry at all (C45_lone_answer); proved when all have one.",
 "C56": "Devices of types with other than one dot raise ValueError (C56_dots); Python's str.lower is a parameter. A camera behind a hub raises KeyError for everything until the hub tells of it again after it was made (C56_camera_child_new).",
 "C57": "SMART devices without an address report the text None (C57_smart_missing).",
 "C33": "For every failure pattern of the individual queries that consists of ordinary exceptions; a later update also raises if the device info is among what failed (C33_info).",
 "C34": "False: after a first query that fails, every later update raises (C34_stuck, with C34_empty_request). Proved for interruptions in the query of the modules, with a device that answers consistently (C34_interrupted_partial).",
 "C35": "For every world and every list; creation of a child is a parameter, ids that are not strings count as missing.",
 "C36": "False: an update that queries some modules of a child discards the data of the others (C36_lost). Proved for the modules that were queried and for updates that query nothing (C36_queried_partial).",
 "C42": "False: a request that fails fast in another way does not keep the next one back (C42_unspaced). Proved for requests that were answered, ended with a connection error, or took at least the interval (C42_spaced_partial). The calls of a client follow each other; times are exact.",
 "C43": "For every comparison of zones. Negative indices raise (C43_negative); a zone that is no ZoneInfo and has no counterpart raises the wrong error (C43_unsupported_offset).",
 "C58": "False of the limit for the whole request: it is not reported as a time-out (C58_timeout_missed); proved for all other faults (C58_kinds_partial).",
 "C59": "Proved for legacy devices that report their zone (C59_legacy_partial), SMART devices with named zones or offsets of whole minutes, and cameras' instants. False: legacy devices without a zone (C59_legacy_zone_lost), nameless zones on SMART devices (C59_smart_old_region), cameras set from a computer in another zone (C59_camera_host_time). Zones of legacy devices are taken for the same exactly if they agree at noon of the days of the current year (C59_same_zone, C59_legacy_offsets_partial), so they may differ at other hours (C59_hours_counterexample) and on the last day of leap years (C59_leap_counterexample).",
 "C60": "For every environment: answers, clock and modules are arbitrary.",
 "C61": "Device, network and clock are arbitrary environments; times are integers. Answers without a token or with unknown codes raise exceptions that are not the library's (C61_foreign_errors).",
 "C62": "Network, TLS and the JSON parser are arbitrary. False of plain-text errors in general: characters outside the base64 alphabet are skipped, so some JSON texts decode (C62_lookalike); proved for texts that begin with {\"err_code\" (C62_plaintext_partial).",
 "C63": "The empty name reads as no name on SMART devices. Devices without a reported time raise KeyError (C63_no_time); list entries with unknown fields raise TypeError (C63_scan_new_field).",
 "C64": "The round trip fails for bulbs whose effect has a user-given name that is itself readable as base64: set_effect hands the decoded name back to the bulb without encoding it (C64_bulb_name_lost: an effect named 'glow' breaks the module after set_effect). C64_bulb_roundtrip_partial covers the names that read as themselves; C64_bulb_after says what is shown in general. A custom effect of a strip is reported as the effect but as not active (C64_strip_custom_inactive). The list of a bulb is fetched once a day; an effect added since makes the hook fail (C64_bulb_stale).",
 "C65": "A failed update, and a device that is still idle half a second after the request, are returned as a normal result, not raised (C65_not_raised).",
 "C66": "The devices are specified in Spec/LightReading.lean: they store the parameters of their command. Without an update in between, turn_on with a transition takes a dimmer back to the brightness of the last update (C66_dimmer_stale). set_brightness switches legacy lights on but not newer ones; the specification says so.",
 "C67": "Partial: the claims about start and pause are false of a robot that shows an error (C67_restarts: it starts from the beginning; C67_pause_ignored: it drives on), because the library then takes its status to be Error. Without an update in between, set_waterlevel undoes a fan speed set since (C67_water_undoes_fan). The hooks of Clean and CleanRecords rewrite the data they read: a second run on the same data shows the next error (C67_error_taken) or raises KeyError (C67_records_once). NaN is sent as a volume (C67_volume_nan_counterexample).",
 "C68": "The camera is specified as a store of sections with a table of methods. Beyond the claim, battery_charging is shown to be true for every camera that reports its voltage as a number, whatever it reports about charging (C68_always_charging).",
 "C69": "Partial: a low battery does make a difference to a thermostat that reports nothing else (C69_low_battery: it is shown as unknown instead of idle). The minimum temperature of frost protection cannot be read (C69_frost_minimum_counterexample): the module asks for nothing. NaN passes the range checks (see C46) and is excluded from the history.",
 "C70": "The writer and the reader are models of orjson and of Python's json module, which are not in the repository; the assumption on them is that they are these functions. Floats, orjson's limits (64-bit integers, depth) and lone surrogates are left out. Discharges, for these libraries, the assumption of other properties that loads undoes dumps.",
 "C71": "Partial: credentials with a space are escaped as in a form, and stand for other credentials in a URL (C71_space). A hash that decodes to something else than an object raises AttributeError (C71_foreign_hash), and a transport made with empty credentials and a hash loses the hash (C71_hash_lost). The documentation says that there is no address while the camera is off; the code does not look at that.",
 "C72": "Partial: a device the library does not support is paired but not reported (C72_unknown); a device that was a child before and was not taken on again is reported as added (C72_again); a scan that does not name the model makes pairing raise KeyError after the device was paired, because of a log text (C72_no_model). The categories named in the requests are a parameter.",
 "C73": "Partial: proved for sensors whose readings go from 0 to an even number. An odd greatest reading (4095 on the devices) counts as more than 100 percent (C73_odd), a lowest reading other than 0 puts the middle in the wrong place (C73_not_zero), and a side without extent raises ZeroDivisionError (C73_division). A range the device has no threshold for is not refused and makes everything unreadable (C73_unsupported). Percentages are exact in the model, floats are rounded in the code.",
 "C74": "Partial: proved for histories in which, of auto off and its delay and of power protection and its threshold, no second one is set before the next update. Without the update the earlier one is undone (C74_undone), and a change another client made to the LED settings is undone by switching the LED (C74_other_undone). The device is assumed to store the fields it is sent.",
 "C75": "Assumed of the network: only the device answers with status 200. The device follows the KLAP protocol, refuses sequence numbers that are not higher than the last, and forgets its session on restart. Results of queries are for devices whose answers do not depend on their state and hold no pages; setters for single idempotent requests. Proved for the KLAP transport.",
 "C76": "A request is carried out before the next one is sent, or never: a device that still works on a request from a closed connection while a new one comes in is not covered.",
 "C77": "False of the code in three ways. Ids: a child lock next to child protection, a thermostat that reports device_on and a vacuum cleaner with a battery sensor give two features one id, so the first update raises (C77_smart_partial says exactly when). Names: the volume of the alarm and its level are both called Alarm volume, so only the level is shown (C77_volume_hidden). Failures: features are only set up while there are none, so whatever a failed first update has not registered is missing for good (C77_smart_lost, C77_smart_clash_lost, C77_legacy_lost), and a camera whose device information cannot be read at first raises at every later update (C77_camera_stuck). For legacy devices and cameras ids and names are proved without exception.",
 "C78": "Assumptions: answers with status 200 come from the device, refusals with status 200 carry an error code, RSA decryption inverts encryption, and a request is carried out before the next one is sent or never. Clock and logs are those of C13.",
 "C79": "The last sentence is false: C79_silent_child proves that a new sensor that does not answer its first query makes every update of the hub fail, since the variable that should hold the answer has no value. C79_known_partial proves it for hubs all of whose listed children were updated before, by comparing two surroundings that differ only in the children's answers.",
 "C80": "Partial because several clauses are false, each shown by a witness: --alias is ignored when --type is given (C80_alias_ignored); an unknown alias still runs the command, without a device, or exits with zero (C80_alias_unknown); a declined or aborted question exits with zero (C80_abort); legacy --type drops the credentials and discovery drops the credentials hash (C80_credentials_dropped, C80_hash_dropped); a device whose first update fails is not closed (C80_update_leak). The _partial theorems carry exactly those exceptions.",
 "C81": "C81_ends_partial: the search ends if no discovery raises. C81_hangs proves that it never ends when discovery raises and no device asked before shows the alias, as the event is then never set. C81_not_retried: a device whose update fails in the first round is not asked in the second. The search makes two rounds although three attempts are configured.",
 "C82": "C82_reported_partial: the exit status is nonzero except when the input of the prompt ends, which C82_prompt_aborted shows to exit with zero.",
 "C83": "Partial because of: negative preset indexes, which overwrite one preset with another (C83_negative_index); the temperature of a preset, which can never be modified (C83_preset_temperature); setting the time of a device without a time module, which does nothing and exits with zero (C83_time_ignored); turn-on-behavior without a type, likewise (C83_behavior_ignored); listing the rules, which always fails (C83_schedule_list).",
 "C84": "Missing are the commands that write directly or ask: C84_prints shows text before the document for cleaning records, consumables and logs, C84_asks for the questions. C84_silent: a failing command writes nothing at all, so the message of the error is lost.",
 "C85": "Assumptions: answers with status 200 that report success come from the device, the device does not report success when it refuses a request, and a request is carried out before the next one is sent or never. TLS is not modelled. For the recovery, refusals carry an authentication error code and the program reports success.",
 "C51": "False of the login version: the loop writes versions None and 2, but both share a key, so the second takes the place of the first. C51_login_version proves that whatever is tried is tried with version 2; C51_tries_all_partial proves the rest. A device that wants the AES login without version 2 is therefore never found. C51_options proves the claim about the printed options: they name no login version, but only version 2 is ever found, which is what the command line assumes.",
 "C86": "Assumptions: answers with status 200 come from the camera, it does not report success when it refuses a request nor offer a secure login to a name it denies, and a request is carried out before the next one is sent or never. TLS is not modelled.",
 "C87": "The camera refuses a request that is not valid with a documented retryable or authentication code. The user name that stored credentials bring must not be empty, and a camera with the less secure login must report success on requests (an error there is raised as such, C14). KLAP recovers with one retry unless the sequence numbers of the session are used up: C87_klap_exhausted proves that dead end, which lasts until the session expires. An AES device refuses a request with a status other than 200 or an error code other than LOGIN_ERROR.",
 "C88": "Time is not modelled: a sleep ends when the search task next runs. Socket options and a failing sendto are not modelled. asyncio is modelled as far as tasks, gather and cancellation are concerned.",
 "C89": "The cookie jar of aiohttp is modelled by host and name; paths, domains and lifetimes of cookies are left out. Devices that share a session have different hosts. C89_shared_cookie_lost and C89_close_in_flight are the witnesses for the two exceptions that the statement names.",
 "C90": "Setting is a request that does the same when carried out twice, and is answered with success. Answers that come in pages are left out, as are cameras and children. That every method has an entry is claimed unless batches had been given up (batch size 1). The theorems on updates are about updates after the first one that are not cancelled. Nobody else changes the device in the meantime.",
 "C91": "The device is any program that stores the settings it takes and reports them; which settings it takes is a parameter, and the calls are such that it takes them. No effect is active. Nobody else changes the light in the meantime. Legacy dimmers are left out. Numbers are integers: JSON texts with fractions are not modelled.",
 "C92": "The device is any program that hands what is addressed to a child to that child, or refuses with an error code; the children are any programs. Children of cameras, which use another envelope, are not included. Nobody else changes the child in the meantime. Numbers are integers: JSON texts with fractions are not modelled.",
 "C93": "Partial because the claim is false of the code: a device found by the old broadcast but not updated has modules None, raises TypeError for its time, and a strip in that state says it is off and does nothing when it is switched off (proved for every such device). Divisions by 10000 are exact in the model; Python rounds them to a float. int() of a text is not modelled.",
 "C94": "The network and the camera are those of C86. Lists in pages are excluded from what is read. Updates are those after the first, with the batch size not lowered to 1 (then methods may be missing, see C06).",
 "C95": "Partial: that asking for a name either gives a value or tells that there is no such attribute is false. hasattr(device, 'valid_temperature_range') raises KasaException on every device whose light has no colour temperature, and any module-based name raises it on a legacy device that was not updated. The listed name _deprecated_set_light_state never resolves on devices whose lights have no has_effects (C95_lost).",
 "C96": "Partial: only members of enumerations that are none of the choices are reported as invalid (C96_invalid_partial); a string that is none of the choices is shown as if nothing were chosen (C96_invalid_counterexample). The rest is proved.",
 "C97": "Partial: a low battery reported under the second name is not read if the device reports the first name as null; reading then raises (C97_battery_low_counterexample). The rest is proved.",
 "C98": "Partial: if the update of a device raises anything but an AuthenticationError, `discover` does not show the device, and the search itself does not return, so that no numbers are printed (C98_detail_counterexample, C98_detail_lost); if disconnecting a device fails, the devices after it stay connected (C98_closed_counterexample). The rest is proved.",
 "C99": "RSA-OAEP, the block cipher, base64, UTF-8 and JSON are parameters with their round trips. C99_same_device assumes that the cryptography raises exceptions only, not interruptions.",
 "C100": "Partial: a single rule that cannot be read (an unknown action or time, a missing field) hides all rules of the service (C100_shown_counterexample). The rest is proved.",
 "C101": "Partial: `supports` of a newer device is not taken back when it stops reporting a voltage, that of a strip is constant, and a legacy meter answering an error makes the update raise KeyError (C101_supports_smart_counterexample, C101_supports_strip, C101_supports_error). The rest is proved.",
 "C102": "Partial, as the claim is false of the code: the behaviours are sent by the names `soft` and `hard`, while bulbs report them as `soft_on` and `hard_on`, so that a bulb that takes the names it reports never changes (C102_set_counterexample); changing the preset keeps the mode (C102_preset_counterexample); and with the documented enumerations dimmers are sent commands such as `set_ActionType.DoubleClick` (C102_orders_counterexample, C102_action_counterexample). Reading, the encoding of each behaviour, orders given as texts and the refusal before an update are proved.",
 "C103": "Partial, as the claim is false of the code: without `rich`, answers lose lower case words in brackets, such as the list `[true]` (C103_prints_counterexample); the help leaves out `command`, `raw-command` and `shell` (C103_help_counterexample) and says of four commands that they are available in groups that do not have them (C103_also_counterexample). The rest is proved for all tables, commands and answers; what `rich` prints is not modelled.",
 "C104": "Partial, as the claim is false of the code: a wall switch that does not report `dev_name` raises `KeyError` on its first update, and on all later ones has the modules of a plug without ever looking for a motion sensor (C104_switch_counterexample). For all other devices it is proved: C104_modules_partial, C104_once and C104_asked.",
 "C105": "Partial, as the claim is false of the code: before anything was heard a device is shown as switched off, at 0 degrees, with the id and address `None` (C105_before_counterexample); discovery replaces all that the device said, so that one that is on is shown as off (C105_found_again_counterexample); a signal of 0 is shown as none (C105_signal_counterexample). What was told last is shown: C105_shown_partial.",
 "C106": "Partial, as the claim is false of the code: connect, disconnect and set_server only return a request and send nothing (C106_nothing_sent_counterexample), though the request is right (C106_requests_partial); a report lacking any one of ten fields makes the connection unreadable (C106_fields_counterexample). Complete reports are shown: C106_connected."
}
