# Formal model of python-kasa in Lean 4

This file is generated by `tools/design.py` from `tools/design.md`, `properties.jsonl`, `tools/notes.json`, the comments of the
model and the built theorems.

## Layout

* `lean/Verif/Py/` – the few Python notions the model needs: insertion-ordered dict, JSON value, numbers, exceptions as values,
  coroutines, a heap, big-endian integers, abstract ciphers and hashes.
* `lean/Verif/Model/` – the model, one file per source file or group of functions. Every definition cites the lines of `/repo` it models,
  and says where it simplifies.
* `lean/Verif/Spec/` – small independent specifications, written without the model.
* `lean/Verif/Lemmas/` – helper lemmas.
* `lean/Verif/Props/` – the property theorems only, each with an `example` that meets its hypotheses.
* `properties.jsonl` – the English properties; `MANIFEST.json` – which theorem covers which; `seeded/LOG.jsonl` – wrong-program experiments.
* `tools/` – regenerate `Verif.lean`, `MANIFEST.json` and this file, check citations, run wrong programs.

## How the model is built

* Functions of the code are total functions. Exceptions are values of `Exc`; code that changes an object and may raise is a function
  from the state to a result and a new state (`PyM`), so that the state after an exception is modelled too.
* The device, the network, the clock, random numbers and the cookie jar are an environment: arbitrary functions with an arbitrary
  state. Theorems quantify over every environment. What happened is recorded in a log of events that no function of the model reads.
* Tasks sharing an object are coroutines that suspend at each `await`; theorems quantify over every schedule and every cancellation.
* Aliasing matters in a few places (redaction, the dicts shared by a strip and its sockets). These are modelled on a heap.
* Properties that are false of the code have a theorem proving the counterexample, and a theorem with suffix `_partial` proving what is
  true. The note in the table names both.

## Plan and result per property

"Modelled and proved" says what is modelled and how it is proved; "remarks" says what is missing or false.

| id | property | modelled and proved | status | remarks |
|---|---|---|---|---|
| C01 | Legacy cipher round trip and length prefix | XorEncryption as functions on byte lists; induction on the payload, generalised over the key. | proved, 4 theorems |  |
| C02 | Legacy TCP framing is independent of segmentation | Stream reader over a list of chunks with `readexactly`; refinement to taking n bytes of the concatenation. | proved, 4 theorems |  |
| C03 | A legacy response always belongs to the request that returned it | XorTransport as a state machine against a device answering in order; invariant: an open connection has no unread answer. | proved, 4 theorems |  |
| C04 | Query retries are bounded and follow the error class | Both `_query` loops over an oracle of outcomes; induction on the attempts left, refinement to a declarative spec of traces. | proved, 4 theorems |  |
| C05 | Concurrent queries on one protocol never interleave on the wire | Tasks as coroutines stepping through lock, sends and release under any schedule; invariant over all reachable states. | proved, 5 theorems |  |
| C06 | A batched SMART query answers every method that was asked for | `_execute_multiple_query` with the device as a function; completeness by induction on batches. | partial, 9 theorems | Holds for every device when batching is enabled; with batch size one the never-batched methods are silently dropped (C06_batch_size_one_drops) and a missing result is a KeyError. |
| C07 | Batch size falls back to single requests after a batch failure | Histories of one protocol object; invariant on the batch size. | proved, 4 theorems |  |
| C08 | List paging returns the whole list and terminates | The loop of `_handle_response_lists` with the device as an oracle; induction on what remains. | partial, 4 theorems | Holds for every list asked for in a batch; a list asked for again on its own is not paged (C08_requeried_list_truncated). |
| C09 | SMART error codes are classified the same way everywhere | Each `_handle_response_error_code` on all integers; case analysis and table membership. | partial, 8 theorems | Proved for every integer code of the protocol and the AES transport; the SSL transport escapes with ValueError on unknown codes, and unhashable JSON codes with TypeError. |
| C10 | Child queries reach the right child and come back unwrapped | Both child wrappers over any parent protocol; request and response equations. | partial, 10 theorems | Proved for children that answer every method; unanswered methods are dropped and batch errors ignored (witnesses). |
| C11 | KLAP requests never reuse a sequence number and are decryptable | KlapEncryptionSession over an abstract cipher and hash; round trip, injectivity of the IV, induction on requests. | proved, 4 theorems | Numbers, keys and round trip for every session and every history; an exhausted counter fails forever (C11_exhausted_stays_exhausted). |
| C12 | KLAP handshake succeeds only for known credentials | KLAP handshakes with any device; case analysis on which hash matched. | proved, 6 theorems |  |
| C13 | No request is encrypted with an expired or reset session | KLAP and AES transports as state machines with a log; invariants over histories of calls. | partial, 5 theorems | KLAP: proved for every history. AES: proved except after a handshake answered with an unreadable session key, where the old session is used again (C13_aes_bad_key). |
| C14 | The camera transport keeps its tags unique and its traffic encrypted | SslAesTransport as a state machine with a log; invariants over histories. | partial, 4 theorems | Numbers and tags proved for every history; encryption proved until a less secure login has succeeded once, after which secure logins do not restore it (C14_downgrade). |
| C15 | Redacted logs contain no sensitive value and are otherwise faithful | `redact_data` on JSON values and, for sharing, on a heap; structural induction, refinement of the heap version. | partial, 12 theorems | Proved: faithfulness outside sensitive keys, masking of the outermost sensitive key, non-interference, all four tables, full any-depth statement for flat tables, no input object modified (heap model). Missing: a sensitive key inside the value of another sensitive key; C15_nested_leak shows the legacy table prints a child's MAC address. |
| C16 | Discovery reports each host at most once | `datagram_received` folded over any sequence of datagrams; invariants. | partial, 11 theorems | Proved for every sequence of datagrams: the first datagram of a host alone decides, the callbacks run once, the three outcomes exclude each other. Missing: a first datagram that makes the library raise an exception that is not its own (C16_legacy_camera) leaves the host in none of them. |
| C17 | Discovering a single host finds it when it answers | The same with `discover_single` waiting for its target; invariants. | partial, 4 theorems | Proved for every sequence of datagrams in which the first one from the target is readable. False when the host sends something from another port first (C17_unexpected_port) and when the answer yields a device without protocol (C17_no_protocol). |
| C18 | The new-style discovery probe is well formed | `generate_query` over an abstract CRC; list arithmetic. | proved, 3 theorems |  |
| C19 | DeviceConfig serialisation round trip without leaking secrets | `to_dict`, `from_dict` and their parts on configurations; case analysis. | partial, 7 theorems | Proved for every configuration with a timeout; a configuration with timeout None comes back with the default timeout (C19_no_timeout). |
| C20 | Every connection type selects one protocol and transport | `get_protocol` as a decision table; case analysis over the whole enumerations. | proved, 6 theorems |  |
| C21 | connect() never leaks a connection | `connect` as a program with an exception or cancellation at each await; case analysis on a log of opened connections. | proved, 3 theorems |  |
| C22 | Splitting a legacy update loses no module query | `_modular_update` packing; induction on the modules. | proved, 4 theorems |  |
| C23 | Legacy command results are unwrapped or raised | `_query_helper`; case analysis on the shape of the answer. | partial, 6 theorems | Proved for answers in which dicts stand under target and command. C23_malformed: a number there leaves the library as TypeError, not KasaException. |
| C24 | Legacy device kind detection is total and deterministic | `_get_device_type_from_sys_info` on JSON; case analysis. | partial, 6 theorems | Proved for every record with a textual type and textual name; camera records raise KeyError (C24_camera) and a null name TypeError (C24_null_name). |
| C25 | A power strip is on exactly when a socket is on | The strip's state and commands; list lemmas. | proved, 7 theorems |  |
| C26 | Children of a legacy strip keep their own data | The answers of a strip and its sockets on a heap; invariants on what is shared. | partial, 3 theorems | Proved for data of targets the strip had not read when its sockets were made (energy, usage); for the targets it had read the dicts are shared objects and a later update of one socket overwrites what the others report (C26_shared, C26_sibling_overwrites). |
| C27 | Energy readings convert units consistently | EmeterStatus over exact rationals; algebra. | partial, 8 theorems | Proved for answers in which no other key begins like the quantity and no null stands; C27_lookalike, C27_null and C27_smart_status show what happens otherwise. |
| C28 | Energy statistics map each period to its value | Daily and monthly statistics; induction over the list. | partial, 6 theorems | Proved for lists read in the current month; after a change of month the old list is used (C28_earlier_month). A list mixing units raises KeyError (C28_mixed). |
| C29 | Out-of-range light settings are never sent | Setters of lights as functions to requests or refusals; case analysis, arithmetic. | partial, 19 theorems | Proved for the single setters; setting a whole state checks nothing but a legacy bulb's brightness (C29_state_unchecked, C29_smart_state_unchecked), NaN passes as a colour temperature (C29_nan), brightness 0 beside a colour is sent (C29_zero_sent), the brightness beside a newer light's colour temperature is unchecked (C29_smart_temp_brightness). |
| C30 | A feature never forwards an invalid value | `Feature.set_value` on all values; case analysis. | partial, 8 theorems | Proved except for NaN, which every range lets through (C30_nan). The range is the one first read (C30_range_kept, C30_stale_range). |
| C31 | Failing modules back off, are disabled, and recover | The state a module keeps, as histories of events; invariants. Devices are shown to act by these events. | proved, 5 theorems | Histories of updates, first updates and commands at arbitrary positive times; whether a module can use its data is an arbitrary outcome. Whole devices and children act on their modules by these events (C31_device, C31_child). |
| C32 | A setter makes the module refresh on the next update | The same histories; a command is followed by a query. | partial, 2 theorems | False of a module given up after ten failures (C32_disabled); proved for all others. |
| C33 | One failing module query does not lose the others | `_modular_update` with `_handle_modular_update_error`; induction on the requests. | proved, 7 theorems | For every failure pattern of the individual queries that consists of ordinary exceptions; a later update also raises if the device info is among what failed (C33_info). |
| C34 | A failed first update can be repeated | `update` of a SMART device with a failure at any await; witness, and a theorem for interrupted module queries. | partial, 3 theorems | False: after a first query that fails, every later update raises (C34_stuck, with C34_empty_request). Proved for interruptions in the query of the modules, with a device that answers consistently (C34_interrupted_partial). |
| C35 | Children of a SMART device follow the device's list | `_create_delete_children` in any world; dict lemmas. | proved, 2 theorems | For every world and every list; creation of a child is a parameter, ids that are not strings count as missing. |
| C36 | SMART child modules keep their data between updates | `SmartChildDevice._update`; case analysis on which modules are queried. | partial, 2 theorems | False: an update that queries some modules of a child discards the data of the others (C36_lost). Proved for the modules that were queried and for updates that query nothing (C36_queried_partial). |
| C37 | on_since follows the device | The cache of `on_since`; induction on histories. | partial, 7 theorems | Proved for histories in which the computed time does not go back; if it does the stale value is kept (C37_stale). |
| C38 | Saving a light preset changes the preset that was named | Presets, both generations; list lemmas. | partial, 12 theorems | Proved for lists with no effect stored before the preset; otherwise a lower slot is written (C38_wrong_slot, C38_smart_wrong_slot), and on newer lights one preset without a colour makes every save drop colours (C38_smart_mixed). |
| C39 | Alarm settings are sent in the form the device reports them | Alarm setters of hubs and cameras; case analysis. | partial, 8 theorems | Proved except for volumes given to set_alarm_volume by number, which are sent as numbers (C39_volume_number), and NaN durations, which pass. |
| C40 | Two devices do not share module state | The class-level dict as state shared by instances; witness. | partial, 5 theorems | False as stated: the dict belongs to the class (C40_shared, C40_missing, C40_extra). C40_single_partial is the claim for a process with a single vacuum. |
| C41 | Child lookup is exact | Lookup of children by alias, index and id; list lemmas. | proved, 3 theorems |  |
| C42 | Requests are spaced out after a connection problem | `HttpClient.post` with the clock as environment; invariant over histories. | partial, 5 theorems | False: a request that fails fast in another way does not keep the next one back (C42_unspaced). Proved for requests that were answered, ended with a connection error, or took at least the interval (C42_spaced_partial). The calls of a client follow each other; times are exact. |
| C43 | Time zone index round trip | The table of time zones and its lookups, for any comparison; full-table kernel evaluation and list lemmas. | proved, 9 theorems | For every comparison of zones. Negative indices raise (C43_negative); a zone that is no ZoneInfo and has no counterpart raises the wrong error (C43_unsupported_offset). |
| C44 | SMART device kind follows from components | Decision tables for kinds; agreement with a spec table. | proved, 5 theorems | The table of the precedence is in Spec/DeviceInfo.lean. |
| C45 | Reading a module returns its own response or raises | `data` of the three kinds of modules; case analysis. | partial, 7 theorems | False when only some of several queries have an entry at all (C45_lone_answer); proved when all have one. |
| C46 | Gradual on/off and other SMART setters respect their ranges | Setters of the SMART modules; case analysis, arithmetic. | partial, 16 theorems | Proved except for NaN (C46_nan) and non-numbers that count as false as a power threshold (C46_threshold_type). |
| C47 | Camera requests and answers are matched | `SmartCamProtocol._execute_query` and naming; string and list lemmas. | proved, 10 theorems | Filing, naming and error raising proved for every device; two empty answers escape as KeyError/RuntimeError (witnesses). |
| C48 | Features are uniquely identified | The registry of features; invariant. | proved, 2 theorems |  |
| C49 | The camera transport shows password digests only to the right peer | SslAesTransport's handshakes with a log; invariant on what is posted to whom. | proved, 2 theorems |  |
| C50 | The device object matches the protocol it talks | `get_protocol`, device classes and discovery; case analysis over all combinations. | partial, 4 theorems | Proved for all combinations but the ones listed in `mismatched` (C50_mismatch proves those wrong); a legacy answer can give a device without protocol (C50_no_protocol). |
| C51 | try_connect_all tries every combination and leaves nothing open | `try_connect_all` with any environment; induction over the candidates. | partial, 5 theorems | False of the login version: the loop writes versions None and 2, but both share a key, so the second takes the place of the first. C51_login_version proves that whatever is tried is tried with version 2; C51_tries_all_partial proves the rest. A device that wants the AES login without version 2 is therefore never found. C51_options proves the claim about the printed options: they name no login version, but only version 2 is ever found, which is what the command line assumes. |
| C52 | Discovery that fails leaves no device open | `discover` and its error paths; case analysis with a log of open devices. | partial, 4 theorems | Proved for library errors and cancellation if closing works; other errors leave every device open (C52_left_open) and a failing close leaves the rest open (C52_close_fails). |
| C53 | A failed legacy update keeps the last known data | `IotDevice.update` in any environment, exceptions at each query; state after failure. | proved, 2 theorems | C53_failed_update and C53_first_update quantify over every environment of answers; the failing request may be any of them. |
| C54 | The energy readings of a power strip add up those of its sockets | Energy of a strip; sums by induction. | partial, 6 theorems | Sums and means proved; sockets reporting volts or no voltage make the strip report 0 mV (C54_voltage). |
| C55 | has_feature tells what the module offers | `has_feature` and its cache; case analysis. | partial, 2 theorems | Proved if nothing is asked before the features are registered; an earlier answer is cached for good (C55_stale). |
| C56 | Model, region, brand and versions are what the device reports | `_get_device_info` of the three families on JSON; string lemmas. | partial, 11 theorems | Devices of types with other than one dot raise ValueError (C56_dots); Python's str.lower is a parameter. A camera behind a hub raises KeyError for everything until the hub tells of it again after it was made (C56_camera_child_new). |
| C57 | Hardware addresses are given with colons | `mac` on all texts; induction on digits. | partial, 5 theorems | SMART devices without an address report the text None (C57_smart_missing). |
| C58 | Failed HTTP requests raise the library's exceptions | `HttpClient.post` on every fault; case analysis. | partial, 4 theorems | False of the limit for the whole request: it is not reported as a time-out (C58_timeout_missed); proved for all other faults (C58_kinds_partial). |
| C59 | Setting the clock | Clocks of the three families; arithmetic on instants and offsets. Days of the year are matched with dates by induction and the finite table of months. | partial, 16 theorems | Proved for legacy devices that report their zone (C59_legacy_partial), SMART devices with named zones or offsets of whole minutes, and cameras' instants. False: legacy devices without a zone (C59_legacy_zone_lost), nameless zones on SMART devices (C59_smart_old_region), cameras set from a computer in another zone (C59_camera_host_time). Zones of legacy devices are taken for the same exactly if they agree at noon of the days of the current year (C59_same_zone, C59_legacy_offsets_partial), so they may differ at other hours (C59_hours_counterexample) and on the last day of leap years (C59_leap_counterexample). |
| C60 | Children are updated with their device | `update` in any environment with a log of which child is updated; induction over children. | proved, 2 theorems | For every environment: answers, clock and modules are arbitrary. |
| C61 | Robot vacuums get requests only within a valid login | `SslTransport` with an arbitrary environment and an event log; invariant over histories relating the transport's state to an observer of the log. | proved, 6 theorems | Device, network and clock are arbitrary environments; times are integers. Answers without a token or with unknown codes raise exceptions that are not the library's (C61_foreign_errors). |
| C62 | Camera requests over the Linkie transport arrive, and only real answers come back | base64, form quoting and the cipher on all texts; round trips by induction, calls by case analysis. | partial, 6 theorems | Network, TLS and the JSON parser are arbitrary. False of plain-text errors in general: characters outside the base64 alphabet are skipped, so some JSON texts decode (C62_lookalike); proved for texts that begin with {"err_code" (C62_plaintext_partial). |
| C63 | Names, networks and passwords survive the trip | UTF-8 and base64 on all texts; requests recorded in a log; case analysis on the outcome of the exchange. | proved, 15 theorems | The empty name reads as no name on SMART devices. Devices without a reported time raise KeyError (C63_no_time); list entries with unknown fields raise TypeError (C63_scan_new_field). |
| C64 | Light effects go by their listed names | Model the hook, set_effect and set_brightness of the three modules and both tables of effects; specify a bulb and a strip that do what they are told; prove what is sent and that the next reading shows it. | partial, 24 theorems | The round trip fails for bulbs whose effect has a user-given name that is itself readable as base64: set_effect hands the decoded name back to the bulb without encoding it (C64_bulb_name_lost: an effect named 'glow' breaks the module after set_effect). C64_bulb_roundtrip_partial covers the names that read as themselves; C64_bulb_after says what is shown in general. A custom effect of a strip is reported as the effect but as not active (C64_strip_custom_inactive). The list of a bulb is fetched once a day; an effect added since makes the hook fail (C64_bulb_stale). |
| C65 | A firmware update is started once, on request, and watched until it ends | Model the device as an environment with arbitrary state, answers and delays and the update as a loop over the remaining time that logs what happens; induct on the time left. | proved, 7 theorems | A failed update, and a device that is still idle half a second after the request, are returned as a normal result, not raised (C65_not_raised). |
| C66 | A light shows what it was set to | Specify the light as a record and each operation's effect on it, and the devices as stores; show that the store refines the record step by step, then induct over the history; show that a store in the state of the record is read as such. | proved, 10 theorems | The devices are specified in Spec/LightReading.lean: they store the parameters of their command. Without an update in between, turn_on with a transition takes a dimmer back to the brightness of the last update (C66_dimmer_stale). set_brightness switches legacy lights on but not newer ones; the specification says so. |
| C67 | A robot vacuum does what it is told and shows what it was set to | Specify the robot as a small machine with a progress and the settings as a record; show each operation's call drives the machine as stated, refine the stored dicts to the record and induct over the history; prove the negations with general witnesses. | partial, 19 theorems | Partial: the claims about start and pause are false of a robot that shows an error (C67_restarts: it starts from the beginning; C67_pause_ignored: it drives on), because the library then takes its status to be Error. Without an update in between, set_waterlevel undoes a fan speed set since (C67_water_undoes_fan). The hooks of Clean and CleanRecords rewrite the data they read: a second run on the same data shows the next error (C67_error_taken) or raises KeyError (C67_records_once). NaN is sent as a volume (C67_volume_nan_counterexample). |
| C68 | A camera's switches, power and motor do what they are told | Specify the camera as a store of sections and the panel of switches as a function; refine step by step and induct over the history; the motor as a walk in the plane. | proved, 9 theorems | The camera is specified as a store of sections with a table of methods. Beyond the claim, battery_charging is shown to be true for every camera that reports its voltage as a number, whatever it reports about charging (C68_always_charging). |
| C69 | A thermostat shows what it was set to and what it does | Specify the thermostat as on/target/offset with a range; refine the stored dict to it, induct over the history; characterise the mode by cases on the list of states. | partial, 10 theorems | Partial: a low battery does make a difference to a thermostat that reports nothing else (C69_low_battery: it is shown as unknown instead of idle). The minimum temperature of frost protection cannot be read (C69_frost_minimum_counterexample): the module asks for nothing. NaN passes the range checks (see C46) and is excluded from the history. |
| C70 | What is written as JSON is read back as it was | Writer by recursion on the value, reader with a bound on the steps; mutual induction over values for the round trip, a proof that the bound is no restriction, and that the reader does not look past a value, from which cut texts are refused. | proved, 10 theorems | The writer and the reader are models of orjson and of Python's json module, which are not in the repository; the assumption on them is that they are these functions. Floats, orjson's limits (64-bit integers, depth) and lone surrogates are left out. Discharges, for these libraries, the assumption of other properties that loads undoes dumps. |
| C71 | The address of a camera stream holds exactly the camera, stream and credentials | Specify a URL reader after RFC 3986 and percent-decoding; show that escaped text has no separators and decodes to the bytes, then the parts; the hash by the round trips of JSON, UTF-8 and base64. | partial, 9 theorems | Partial: credentials with a space are escaped as in a form, and stand for other credentials in a URL (C71_space). A hash that decodes to something else than an object raises AttributeError (C71_foreign_hash), and a transport made with empty credentials and a hash loses the hash (C71_hash_lost). The documentation says that there is no address while the camera is off; the code does not look at that. |
| C72 | Pairing adds what was found, reports what was added, and unpairing removes one device | The module over an arbitrary environment with call, sleep and update; the requests as a prefix of a plan in every outcome; a hub machine that reads the requests independently, and induction over the operations. | partial, 9 theorems | Partial: a device the library does not support is paired but not reported (C72_unknown); a device that was a child before and was not taken on again is reported as added (C72_again); a scan that does not name the model makes pairing raise KeyError after the device was paired, because of a log text (C72_no_model). The categories named in the requests are a parameter. |
| C73 | A motion sensor fires beyond its threshold and shows what it was set to | Exact rational arithmetic; characters by their numbers for the names; a relation of owner and device kept by every request, and induction over the operations. | partial, 11 theorems | Partial: proved for sensors whose readings go from 0 to an even number. An odd greatest reading (4095 on the devices) counts as more than 100 percent (C73_odd), a lowest reading other than 0 puts the middle in the wrong place (C73_not_zero), and a side without extent raises ZeroDivisionError (C73_division). A range the device has no threshold for is not refused and makes everything unreadable (C73_unsupported). Percentages are exact in the model, floats are rounded in the code. |
| C74 | Changing one setting of a newer device leaves its other settings alone | For one setting: which fields of which dict change, from the update laws of dicts. For histories: an invariant relating device, read state and wishes with the set of dicts changed since the last update. | partial, 5 theorems | Partial: proved for histories in which, of auto off and its delay and of power protection and its threshold, no second one is set before the next update. Without the update the earlier one is undone (C74_undone), and a change another client made to the LED settings is undone by switching the LED (C74_other_undone). The device is assumed to store the fields it is sent. |
| C75 | Over an unreliable network requests are carried out at most once, and answered ones exactly once | The invariant that client and device have the same keys or the device has none, and that the device's last sequence number is not above the client's; each exchange is split by its fate. Queries are handled by a lemma that lifts any reflexive and transitive relation from messages to queries. Results follow from C06 by comparing with a transport that never fails. | proved, 5 theorems | Assumed of the network: only the device answers with status 200. The device follows the KLAP protocol, refuses sequence numbers that are not higher than the last, and forgets its session on restart. Results of queries are for devices whose answers do not depend on their state and hold no pages; setters for single idempotent requests. Proved for the KLAP transport. |
| C76 | Queries to a legacy device are carried out at most once per attempt, in order, and answered by the device's own answer | The invariant of C03 (all bytes of all answers on the open connection are consumed) with the answers now produced by a program; one request is analysed by whether the device carried it out, queries by induction over the attempts. | proved, 4 theorems | A request is carried out before the next one is sent, or never: a device that still works on a request from a closed connection while a new one comes in is not covered. |
| C77 | Every feature a device offers is there, under its own id and its own name | The calls of all _initialize_features methods are a table; that no two ids or names coincide apart from the listed pairs is decided over the table, and the registration loops are analysed by induction over any list of modules. | partial, 12 theorems | False of the code in three ways. Ids: a child lock next to child protection, a thermostat that reports device_on and a vacuum cleaner with a battery sensor give two features one id, so the first update raises (C77_smart_partial says exactly when). Names: the volume of the alarm and its level are both called Alarm volume, so only the level is shown (C77_volume_hidden). Failures: features are only set up while there are none, so whatever a failed first update has not registered is missing for good (C77_smart_lost, C77_smart_clash_lost, C77_legacy_lost), and a camera whose device information cannot be read at first raises at every later update (C77_camera_stuck). For legacy devices and cameras ids and names are proved without exception. |
| C78 | Requests over the AES transport are carried out at most once, and answered ones exactly once | The device and the network are an environment of the transport model of C13. An invariant relates the keys of both sides between requests; each request is analysed through handshake, login and passthrough. The part about queries is shared with C75 through a lemma about any transport that carries requests out at most once. | proved, 6 theorems | Assumptions: answers with status 200 come from the device, refusals with status 200 carry an error code, RSA decryption inverts encryption, and a request is carried out before the next one is sent or never. Clock and logs are those of C13. |
| C79 | The children of a camera hub follow the hub's list | Model what SmartCamDevice overrides of the update of SmartDevice, with arbitrary modules and answers. The loop over the list is analysed by induction with an invariant about the children created so far; the rest reuses the lemmas of C33 and C34. | partial, 4 theorems | The last sentence is false: C79_silent_child proves that a new sensor that does not answer its first query makes every update of the hub fail, since the variable that should hold the answer has no value. C79_known_partial proves it for hubs all of whose listed children were updated before, by comparing two surroundings that differ only in the children's answers. |
| C80 | The command line tool acts on the device it was told to | Model cli and its helpers as a monad over the events of a run with arbitrary answers; prove Hoare triples about which events may occur and what is known of the device at each point, and read the theorems off the cases of a whole run. | partial, 15 theorems | Partial because several clauses are false, each shown by a witness: --alias is ignored when --type is given (C80_alias_ignored); an unknown alias still runs the command, without a device, or exits with zero (C80_alias_unknown); a declined or aborted question exits with zero (C80_abort); legacy --type drops the credentials and discovery drops the credentials hash (C80_credentials_dropped, C80_hash_dropped); a device whose first update fails is not closed (C80_update_leak). The _partial theorems carry exactly those exceptions. |
| C81 | Searching for a device by its alias | Model the search as a state machine stepped by the events of an arbitrary schedule; prove an invariant relating its state to the list of events so far. | partial, 7 theorems | C81_ends_partial: the search ends if no discovery raises. C81_hangs proves that it never ends when discovery raises and no device asked before shows the alias, as the event is then never set. C81_not_retried: a device whose update fails in the first round is not asked in the second. The search makes two rounds although three attempts are configured. |
| C82 | A command is run on the child the user named, and on nothing else | Model _get_child_device and the wrapper with an arbitrary body; characterise the choice by an independent relation (Chosen) and prove both directions, with induction over the inputs of the prompt. | partial, 7 theorems | C82_reported_partial: the exit status is nonzero except when the input of the prompt ends, which C82_prompt_aborted shows to exit with zero. |
| C83 | A command changes what it was asked to change, and nothing else | Model every command as a computation over what it does; specify by a table what each command asks for and needs; prove with a small logic of computations that the changes made are a prefix of the change asked for. | partial, 10 theorems | Partial because of: negative preset indexes, which overwrite one preset with another (C83_negative_index); the temperature of a preset, which can never be modified (C83_preset_temperature); setting the time of a device without a time module, which does nothing and exits with zero (C83_time_ignored); turn-on-behavior without a type, likewise (C83_behavior_ignored); listing the rules, which always fails (C83_schedule_list). |
| C84 | With --json the standard output is one JSON document | Compose the model of a run with that of the commands; prove that the commands not listed write nothing by themselves, and count the documents over the cases of a run. | partial, 6 theorems | Missing are the commands that write directly or ask: C84_prints shows text before the document for cleaning records, consumables and logs, C84_asks for the questions. C84_silent: a failing command writes nothing at all, so the message of the error is lost. |
| C85 | Requests over the HTTPS transport are carried out at most once, and the transport recovers by itself | The device and the network are an environment of the transport model of C61. Each request is analysed through expiry check, login and request; a login leaves the program alone. The recovery uses the invariant that the transport has no session or the one the device has, which every request establishes once nothing goes wrong. The part about queries is shared with C75 and C78. | proved, 7 theorems | Assumptions: answers with status 200 that report success come from the device, the device does not report success when it refuses a request, and a request is carried out before the next one is sent or never. TLS is not modelled. For the recovery, refusals carry an authentication error code and the program reports success. |
| C86 | Requests to a camera are carried out at most once | The camera and the network are an environment of the transport model of C14. Each request is analysed through probes, login and request; a login leaves the program alone; the invariant is that the keys the transport holds are those of a secure login. | proved, 4 theorems | Assumptions: answers with status 200 come from the camera, it does not report success when it refuses a request nor offer a secure login to a name it denies, and a request is carried out before the next one is sent or never. TLS is not modelled. |
| C87 | When the failures end, a device can be used again | An invariant of all histories (the state is either before a login or that of some login, user name one of the possible ones) and a stronger one for the time after a reset; one step lemma for each; then the retry loop of the protocol over any transport with these two step lemmas. For KLAP and AES the calm executions of C75 and C78 are started at any later moment. | proved, 8 theorems | The camera refuses a request that is not valid with a documented retryable or authentication code. The user name that stored credentials bring must not be empty, and a camera with the less secure login must report success on requests (an error there is raised as such, C14). KLAP recovers with one retry unless the sequence numbers of the session are used up: C87_klap_exhausted proves that dead end, which lasts until the session expires. An AES device refuses a request with a status other than 200 or an error code other than LOGIN_ERROR. |
| C88 | Discovery waits for answers and callbacks, ends, and cleans up | A transition system of the call, the search task and the callback tasks, with the existing model of datagram_received; invariants for each claim; a lexicographic rank and the task that has to act next for the end on fair schedules. | proved, 15 theorems | Time is not modelled: a sleep ends when the search task next runs. Socket options and a failing sendto are not modelled. asyncio is modelled as far as tasks, gather and cancellation are concerned. |
| C89 | HTTP sessions are used, shared and closed as promised, and cookies are those of the device | A transition system of any number of clients and sessions; an invariant that ties every client to its session, every open session to its client, and the jar to the history since the head of the last answer. | proved, 10 theorems | The cookie jar of aiohttp is modelled by host and name; paths, domains and lifetimes of cookies are left out. Devices that share a session have different hosts. C89_shared_cookie_lost and C89_close_in_flight are the witnesses for the two exceptions that the statement names. |
| C90 | What was set is what is read back, whatever the network does | A Hoare-style triple for the code of queries over a transport that passes on what the device may answer; the at-most-once theorems of C75, C76, C78 and C85 supply such transports; then C33 for updates. | proved, 11 theorems | Setting is a request that does the same when carried out twice, and is answered with success. Answers that come in pages are left out, as are cameras and children. That every method has an entry is claimed unless batches had been given up (batch size 1). The theorems on updates are about updates after the first one that are not cancelled. Nobody else changes the device in the meantime. |
| C91 | A light shows what it was set to, whatever the network does | C66 gives what each call sends and what each reading shows; C75, C76, C78, C85 and C90 give what becomes of a request and what a query returns; induction over the calls, with the state of the device as invariant. | proved, 5 theorems | The device is any program that stores the settings it takes and reports them; which settings it takes is a parameter, and the calls are such that it takes them. No effect is active. Nobody else changes the light in the meantime. Legacy dimmers are left out. Numbers are integers: JSON texts with fractions are not modelled. |
| C92 | Children behind a hub: what was set at one is what is read from it, and the others are left alone, whatever the network does | C10 gives the envelope and what is made of its answer, C75, C76, C78 and C85 what becomes of the envelope on the way; induction over the calls with the states of the children as invariant; C36 for the update. | proved, 9 theorems | The device is any program that hands what is addressed to a child to that child, or refuses with an error code; the children are any programs. Children of cameras, which use another envelope, are not included. Nobody else changes the child in the meantime. Numbers are integers: JSON texts with fractions are not modelled. |
| C93 | What a legacy device object shows before and after its first update | Model requires_update, update_from_discover_info and the readings over the state of the update model (C22, C53); induction over the events with the state of knowledge as invariant. | partial, 9 theorems | Partial because the claim is false of the code: a device found by the old broadcast but not updated has modules None, raises TypeError for its time, and a strip in that state says it is off and does nothing when it is switched off (proved for every such device). Divisions by 10000 are exact in the model; Python rounds them to a float. int() of a text is not modelled. |
| C94 | A camera shows what it was set to, whatever the network does | The transport of C86 is faithful to the camera, so the triple of C90 applies to camera queries; then induction over the operations with the state of the switches as invariant; C33 for cameras gives the updates. | proved, 5 theorems | The network and the camera are those of C86. Lists in pages are excluded from what is read. Updates are those after the first, with the batch size not lowered to 1 (then methods may be missing, see C06). |
| C95 | Deprecated names stand for what replaced them | Each row of the tables is compared with the specification's table; the lookup is unfolded once for each kind of row over arbitrary attributes and modules. | partial, 10 theorems | Partial: that asking for a name either gives a value or tells that there is no such attribute is false. hasattr(device, 'valid_temperature_range') raises KasaException on every device whose light has no colour temperature, and any module-based name raises it on a legacy device that was not updated. The listed name _deprecated_set_light_state never resolves on devices whose lights have no has_effects (C95_lost). |
| C96 | Listings show every feature once, whatever its getters do | A loop that adds lines is followed by induction over the features; each feature's outcome is caught in its own turn; filters by category form a permutation of the features. | partial, 11 theorems | Partial: only members of enumerations that are none of the choices are reported as invalid (C96_invalid_partial); a string that is none of the choices is shown as if nothing were chosen (C96_invalid_counterexample). The rest is proved. |
| C97 | Sensors show what the device reported | Each feature id is mapped to what its attribute computes; the claims are case distinctions over arbitrary reports. | partial, 11 theorems | Partial: a low battery reported under the second name is not read if the device reports the first name as null; reading then raises (C97_battery_low_counterexample). The rest is proved. |
| C98 | What a search prints stands in one piece for each device | The callbacks are tasks that hold a semaphore; an invariant over all schedules gives the shape of the output, a measure their end. | partial, 12 theorems | Partial: if the update of a device raises anything but an AuthenticationError, `discover` does not show the device, and the search itself does not return, so that no numbers are printed (C98_detail_counterexample, C98_detail_lost); if disconnecting a device fails, the devices after it stay connected (C98_closed_counterexample). The rest is proved. |
| C99 | Encrypted discovery data are read, and never decide which device is found | An invariant over all histories: each probe sent carries the public half of the one key pair; the round trips of RSA, CBC and padding then give the data. | proved, 4 theorems | RSA-OAEP, the block cipher, base64, UTF-8 and JSON are parameters with their round trips. C99_same_device assumes that the cryptography raises exceptions only, not interruptions. |
| C100 | Rules of legacy devices are shown, deleted and switched | Rules are read by a model of the generated parser; a device that obeys is specified by its list of rules; the claims follow by induction over the list. | partial, 6 theorems | Partial: a single rule that cannot be read (an unknown action or time, a missing field) hides all rules of the service (C100_shown_counterexample). The rest is proved. |
| C101 | Energy meters ask for the period asked for, and claim what is reported | The device is any function of the earlier requests and the request; requests are recorded. The statistics reuse the conversion of C28 and the sums of C54; strips by induction over the sockets; supports by induction over the history of updates. | partial, 16 theorems | Partial: `supports` of a newer device is not taken back when it stops reporting a voltage, that of a strip is constant, and a legacy meter answering an error makes the update raise KeyError (C101_supports_smart_counterexample, C101_supports_strip, C101_supports_error). The rest is proved. |
| C102 | Turn-on behaviours of bulbs, and buttons and fades of dimmers, are set as asked | A device is any state with a step function; the specification says what a bulb and a dimmer do with requests. Reading and the encodings by the fields; orders by cases; the counterexamples hold for every device that meets the specification, and sample devices meet it. | partial, 9 theorems | Partial, as the claim is false of the code: the behaviours are sent by the names `soft` and `hard`, while bulbs report them as `soft_on` and `hard_on`, so that a bulb that takes the names it reports never changes (C102_set_counterexample); changing the preset keeps the mode (C102_preset_counterexample); and with the documented enumerations dimmers are sent commands such as `set_ActionType.DoubleClick` (C102_orders_counterexample, C102_action_counterexample). Reading, the encoding of each behaviour, orders given as texts and the refusal before an update are proved. |
| C103 | The tool's commands are found and listed, raw commands send what they are given, and their answers are printed | Tables of lazy commands and packages are arbitrary; help by induction over the table; the tool's own table by evaluation of the whole finite table. Removing tags is proved equivalent to an inductive specification by strong induction over the text. Raw commands reuse C23. | partial, 14 theorems | Partial, as the claim is false of the code: without `rich`, answers lose lower case words in brackets, such as the list `[true]` (C103_prints_counterexample); the help leaves out `command`, `raw-command` and `shell` (C103_help_counterexample) and says of four commands that they are available in groups that do not have them (C103_also_counterexample). The rest is proved for all tables, commands and answers; what `rich` prints is not modelled. |
| C104 | A legacy device offers the modules of its kind, and updates ask for what they show | `_initialize_modules` of each class is a fold of `add`; its names are computed from those added. The query of each module has a closed form by induction over its commands; the requests of an update are bounded from both sides by the packing theorem of C22. | partial, 4 theorems | Partial, as the claim is false of the code: a wall switch that does not report `dev_name` raises `KeyError` on its first update, and on all later ones has the modules of a plug without ever looking for a motion sensor (C104_switch_counterexample). For all other devices it is proved: C104_modules_partial, C104_once and C104_asked. |
| C105 | A newer device shows what was told of it last | Events replace the device information; readings are computed from a report given by a specification; names by the round trip of base64 and UTF-8 (C63). | partial, 4 theorems | Partial, as the claim is false of the code: before anything was heard a device is shown as switched off, at 0 degrees, with the id and address `None` (C105_before_counterexample); discovery replaces all that the device said, so that one that is on is shown as off (C105_found_again_counterexample); a signal of 0 is shown as none (C105_signal_counterexample). What was told last is shown: C105_shown_partial. |
| C106 | Connecting a legacy device to the cloud | Reports as dictionaries with ten fields; operations as a returned request and the device afterwards; a specification of an account that obeys requests. | partial, 4 theorems | Partial, as the claim is false of the code: connect, disconnect and set_server only return a request and send nothing (C106_nothing_sent_counterexample), though the request is right (C106_requests_partial); a report lacking any one of ten fields makes the connection unreadable (C106_fields_counterexample). Complete reports are shown: C106_connected. |

## Parts of the code that are modelled

Lines of `/repo/kasa` cited by the model, with the model files. Log messages, type annotations and doc strings within them are omitted.

| source | lines | model |
|---|---|---|
| __init__.py | 87-104, 108-128 | Model/Deprecated |
| cli/common.py | 20-21, 25, 37, 42-46, 53-57, 60-63, 66-95, 117-227, 237-250, 272-285 | Model/Cli, Model/CliChild, Model/CliCommands, Model/CliGroups, Model/Listing |
| cli/device.py | 24-214 | Model/CliCommands, Model/CliGroups, Model/Listing |
| cli/discover.py | 36-260, 276-284, 353-381 | Model/Cli, Model/CliConfig, Model/CliDiscover, Model/CliGroups |
| cli/feature.py | 18-154 | Model/CliGroups, Model/Listing |
| cli/hub.py | 17-95 | Model/CliCommands, Model/CliGroups |
| cli/lazygroup.py | 13-22, 24-28, 30-34, 36-53, 55-71 | Model/CliGroups |
| cli/light.py | 16-221 | Model/CliCommands, Model/CliGroups |
| cli/main.py | 56-63, 65-96, 101-225, 228-387, 390-443 | Model/Cli, Model/CliGroups |
| cli/schedule.py | 15-46 | Model/CliCommands, Model/CliGroups, Model/Rules |
| cli/time.py | 24-132, 135-160 | Model/CliCommands, Model/CliGroups |
| cli/usage.py | 23-113 | Model/CliCommands, Model/CliGroups |
| cli/vacuum.py | 18-84 | Model/CliCommands, Model/CliGroups |
| cli/wifi.py | 17-50 | Model/CliCommands, Model/CliGroups |
| credentials.py | 9-17, 26-31 | Model/Config, Model/Klap |
| device.py | 134-147, 153-166, 219, 230-245, 341-344, 372-380, 387-393, 395-401, 443-446, 453-458, 512-521, 523-538, 540-576, 578-612, 616-638 | Model/Deprecated, Model/DeviceInfo, Model/Feature, Model/Features, Model/IotReadings, Model/Names, Model/SmartDevice |
| device_factory.py | 48-83, 86-130, 133-145, 148-181, 184-242 | Model/Connect, Model/Factory, Model/SysInfo |
| device_type.py | 8-27 | Model/SysInfo, Props/SysInfo |
| deviceconfig.py | 52-56, 59-64, 67-83, 92, 95-103, 105-129, 132-171, 179-202 | Model/Config, Model/HttpSessions |
| discover.py | 44-51, 54-59, 62-116, 173-177, 179-190, 195, 197-238, 243-256, 263, 275-336, 338-396, 398-403, 409-412, 424, 480-511, 573-607, 610-700, 702-722, 724-733, 735-757, 759-789, 791-801, 803-842, 844-931, 945-952, 955-961, 964-986 | Model/Cli, Model/Connect, Model/Discover, Model/DiscoverData, Model/DiscoverTasks, Model/Redact |
| emeterstatus.py | 58-91 | Model/Emeter |
| exceptions.py | 11, 15, 25, 29, 38-59, 62-202 | Model/ErrorCodes, Model/Exceptions, Model/Sensors, Model/SslAes |
| feature.py | 83-154, 167-191, 193-200, 212-229, 231-241, 244-272, 274-327 | Model/CliCommands, Model/Deprecated, Model/Feature, Model/Listing |
| httpclient.py | 37-57, 59-162, 164-170, 172-177 | Model/HttpClient, Model/HttpSessions, Model/Ssl |
| interfaces/energy.py | 18-27, 29, 31-33, 35-117, 177-185, 189-194 | Model/Deprecated, Model/Features, Model/Meter |
| interfaces/led.py | 14-29 | Model/Features |
| interfaces/light.py | 75-84, 175-178, 180-186, 190-214 | Model/Deprecated, Model/Lights |
| interfaces/lighteffect.py | 53-54, 56-71 | Model/Features, Model/LightEffects |
| interfaces/lightpreset.py | 86-101 | Model/Features |
| interfaces/thermostat.py | 12-19 | Model/Thermostat |
| iot/effects.py | 7-278, 280-295, 297-298 | Model/Effects |
| iot/iotbulb.py | 34-42, 45-71, 74-81, 83-94, 200, 202, 214-229, 252-287, 306-310, 312-320, 327-354, 356-374, 376-417, 419-427, 429-453, 455-459, 461-476, 495-500, 502-514, 516-520, 531-534 | Model/Behaviours, Model/IotDevice, Model/IotSetup, Model/LightReading, Model/Lights |
| iot/iotdevice.py | 39-64, 67-70, 73-80, 183-200, 207-213, 215-222, 224-237, 246-284, 291-296, 302-329, 331-337, 339-393, 395-443, 445-457, 459-463, 465-474, 476-482, 484-492, 494-504, 520-540, 542-558, 560-565, 567-585, 630-649, 651-659, 661-695, 698-701, 712-743, 745-780 | Model/Behaviours, Model/CliGroups, Model/DeviceInfo, Model/Discover, Model/Features, Model/IotDevice, Model/IotReadings, Model/IotSetup, Model/Meter, Model/Names, Model/OnSince, Model/StripData, Model/SysInfo |
| iot/iotdimmer.py | 17-23, 26-30, 33-37, 71, 83-91, 93-104, 106-136, 138-146, 148-159, 161-186, 188-194, 196-215, 217-223 | Model/Behaviours, Model/IotSetup, Model/LightReading, Model/Lights |
| iot/iotlightstrip.py | 47, 60-67 | Model/IotSetup, Model/LightEffects |
| iot/iotmodule.py | 17-24, 33-41, 52-67, 69-76 | Model/Features, Model/IotCloud, Model/IotDevice, Model/IotSetup, Model/LightEffects, Model/Meter, Model/Rules, Model/SmartModule, Model/StripData |
| iot/iotplug.py | 58-66, 68-73, 75-81, 97-104 | Model/IotReadings, Model/IotSetup, Model/LightReading, Model/Lights, Model/Strip |
| iot/iotstrip.py | 29-35, 99, 102-116, 118-122, 132-144, 162-174, 176-183, 189-193, 195-197, 199-201, 203-209, 211-219, 221-255, 257-262, 264-286, 288-297, 322-331, 333-340, 342-370, 386, 388-390, 392-403, 405-415, 417-422, 456-474, 483-491 | Model/Emeter, Model/Features, Model/IotReadings, Model/IotSetup, Model/Meter, Model/OnSince, Model/Strip, Model/StripData |
| iot/iottimezone.py | 15-24, 27-38, 41-56, 59-71, 74-185 | Model/TimeZone, Model/ZoneMatch |
| iot/modules/__init__.py | 1-37 | Model/Features |
| iot/modules/ambientlight.py | 14-41, 43-50, 52-60, 67-70, 72-75, 77-79 | Model/Features, Model/IotSetup, Model/Motion |
| iot/modules/cloud.py | 13-25, 32-45, 47-50, 52-54, 56-59, 61-77 | Model/Features, Model/IotCloud, Model/IotSetup |
| iot/modules/dimmer.py | 42-144, 146-153, 165-177, 184-253, 260-270 | Model/Features, Model/IotSetup, Model/Setters |
| iot/modules/emeter.py | 12, 15-30, 37-51, 73-78, 80-82, 84-93, 95-104, 106-142, 144-155 | Model/Emeter, Model/IotSetup, Model/Meter |
| iot/modules/led.py | 12-14, 34-37 | Model/IotDevice, Model/IotSetup |
| iot/modules/light.py | 31-78, 80-83, 100-110, 112-120, 122-141, 143-150, 152-168, 174-184, 186-202, 209-223 | Model/Features, Model/IotSetup, Model/LightReading, Model/Lights |
| iot/modules/lighteffect.py | 13-20, 27-36, 38-78, 98-100 | Model/IotSetup, Model/LightEffects |
| iot/modules/lightpreset.py | 54-62, 84-103, 105-119, 126-142, 144-146 | Model/IotSetup, Model/Presets |
| iot/modules/motion.py | 17-26, 29-37, 39-42, 52-60, 62-76, 78-88, 94-250, 252-259, 261-264, 266-276, 278-281, 305-307, 309-318, 320-323, 325-331, 333-342, 344-346, 348-354, 356-359, 361-364, 366-369, 371-377, 379-382, 384-388, 405-408 | Model/Features, Model/IotSetup, Model/Motion |
| iot/modules/rulemodule.py | 14-20, 23-29, 32-52, 60-74, 76-86 | Model/IotSetup, Model/Rules |
| iot/modules/time.py | 18-23, 25-28, 30-43, 68-85 | Model/IotSetup, Model/TimeZone |
| iot/modules/usage.py | 13-30, 42-60, 62-71, 73-78, 80-89, 91-98, 100-102, 104-122 | Model/Emeter, Model/IotSetup, Model/Meter |
| json.py | 9-31 | Model/JsonText |
| module.py | 184, 196-198, 200-202, 235-240, 249-262, 265-308 | Model/Deprecated, Model/Feature, Model/Features |
| protocols/iotprotocol.py | 29-40, 43-57, 73, 76-83, 85-137 | Model/QueryLock, Model/Redact, Model/RetryLoop |
| protocols/protocol.py | 36-64, 67-73 | Model/Redact |
| protocols/smartcamprotocol.py | 28-36, 39-46, 52-58, 60-88, 94-111, 113-117, 119-142, 144-199, 202-262 | Model/ChildProtocol, Model/ErrorCodes, Model/SmartCamProtocol |
| protocols/smartprotocol.py | 40-48, 51-90, 94-97, 101-130, 132-199, 201-316, 318-359, 361-364, 366-406, 408-436, 443-521 | Model/ChildProtocol, Model/ErrorCodes, Model/LightCalls, Model/QueryLock, Model/Redact, Model/RetryLoop, Model/SmartCamProtocol, Model/SmartProtocol, Model/SmartText |
| smart/effects.py | 34-453, 455-456 | Model/Effects |
| smart/modules/__init__.py | 1-91 | Model/Features |
| smart/modules/alarm.py | 14-19, 33-38, 40-136, 143-151, 158-168, 170-177, 184-191, 204-232, 238-252, 254-257, 259-262 | Model/Alarm, Model/Features |
| smart/modules/autooff.py | 20-55, 61-64, 66-82, 84-87, 89-97, 99-105 | Model/Features, Model/Sensors, Model/Setters, Model/Settings |
| smart/modules/batterysensor.py | 19-52, 63-72 | Model/Features, Model/Sensors |
| smart/modules/brightness.py | 17-34, 41-50, 52-76 | Model/Features, Model/LightCalls, Model/LightEffects, Model/LightReading, Model/Lights |
| smart/modules/childlock.py | 15-28, 30-33, 35-37 | Model/Features, Model/Settings |
| smart/modules/childprotection.py | 15-28, 34-37, 39-41 | Model/Features, Model/Settings |
| smart/modules/childsetup.py | 28-40, 52-73, 75-82, 84-105, 109-110 | Model/ChildSetup, Model/Features |
| smart/modules/clean.py | 17-30, 33-48, 51-58, 80-224, 226-254, 268-283, 285-290, 296-298, 300-302, 304-306, 313-316, 318-325, 327-335, 357-372, 374-377, 379-382, 404-407, 409-411 | Model/Features, Model/Vacuum |
| smart/modules/cleanrecords.py | 23-49, 87-96, 105-109, 111-158 | Model/Features, Model/Vacuum |
| smart/modules/cloud.py | 16-29, 31-36 | Model/Features, Model/Sensors |
| smart/modules/color.py | 15-28, 35-49, 51-56, 58-99 | Model/Features, Model/LightCalls, Model/LightReading, Model/Lights |
| smart/modules/colortemperature.py | 21-35, 42-57, 59-71 | Model/Features, Model/LightCalls, Model/LightReading, Model/Lights |
| smart/modules/consumables.py | 16-27, 30-45, 48-80, 91-135, 137-156, 158-165 | Model/Consumables, Model/Features |
| smart/modules/contactsensor.py | 13, 15-28 | Model/Features, Model/Sensors |
| smart/modules/dustbin.py | 14-22, 30-70, 93-98, 100-116, 118-121, 123-127 | Model/Features, Model/Vacuum |
| smart/modules/energy.py | 22-35, 37-49, 51-67, 69-72, 79-85, 87-94, 96-103, 105-117, 125-139, 145-162 | Model/Emeter, Model/Meter |
| smart/modules/fan.py | 18-45, 51-54, 56-66, 68-71, 73-75 | Model/Features, Model/Setters, Model/Settings |
| smart/modules/firmware.py | 27-38, 41-61, 74-132, 140-149, 168-173, 181-237, 239-242, 244-248 | Model/Features, Model/Firmware, Model/Settings |
| smart/modules/frostprotection.py | 17-19, 21-24, 26-31, 33-36 | Model/Thermostat, Model/ThermostatModule |
| smart/modules/homekit.py | 15-27 | Model/Features |
| smart/modules/humiditysensor.py | 15-41, 52-55 | Model/Features, Model/Sensors |
| smart/modules/led.py | 21-27, 29-32, 34-41 | Model/Settings |
| smart/modules/light.py | 38-46, 48-54, 56-62, 64-84, 86-100, 102-115, 117-131, 138-152 | Model/LightCalls, Model/LightReading, Model/Lights |
| smart/modules/lighteffect.py | 21-24, 26-29, 31-61, 77-110, 112-115, 117-125, 127-133, 135-160 | Model/LightEffects, Model/Lights |
| smart/modules/lightpreset.py | 35, 37-74, 94-116, 118-131, 133-152 | Model/Presets |
| smart/modules/lightstripeffect.py | 19-24, 38-48, 50-55, 57-61, 63-72, 83-132 | Model/LightEffects, Model/Lights |
| smart/modules/lighttransition.py | 15-18, 48, 50-92, 104-139, 141-165, 172-178, 180-205, 207-213, 215-246 | Model/Features, Model/Setters |
| smart/modules/matter.py | 15-38 | Model/Features |
| smart/modules/mop.py | 16-22, 30-58, 77-80, 82-90 | Model/Features, Model/Vacuum |
| smart/modules/motionsensor.py | 14-27 | Model/Features, Model/Sensors |
| smart/modules/overheatprotection.py | 12, 14-27, 29-37 | Model/Features, Model/Sensors |
| smart/modules/powerprotection.py | 17-43, 45-47, 49-55, 57-60, 62-79, 81-86, 88-91, 98-104, 106-117, 119-124 | Model/Features, Model/Sensors, Model/Setters, Model/Settings |
| smart/modules/reportmode.py | 15-28 | Model/Features, Model/Sensors |
| smart/modules/speaker.py | 20-45, 47-51, 53-56, 58-63, 65-67 | Model/Features, Model/Speaker |
| smart/modules/temperaturecontrol.py | 19-71, 78-81, 83-85, 87-111, 128-131, 133-136, 138-154, 156-159, 161-166 | Model/Features, Model/Setters, Model/Thermostat |
| smart/modules/temperaturesensor.py | 17-56, 62-65, 67-70, 72-75, 77-81 | Model/Features, Model/Sensors, Model/Settings, Model/ThermostatModule |
| smart/modules/thermostat.py | 17-25, 31-34, 36-38, 40-43, 45-48, 50-56, 58-61, 63-66, 68-74 | Model/ThermostatModule |
| smart/modules/time.py | 23-35, 37-50, 57-63, 65-84 | Model/Features, Model/TimeZone |
| smart/modules/waterleaksensor.py | 12-17, 25-62, 69-72, 79-88 | Model/Features, Model/Sensors |
| smart/smartchilddevice.py | 25-36, 38-53, 79-115, 117-140, 142-160 | Model/CamChild, Model/CamDevice, Model/ChildProtocol, Model/DeviceInfo, Model/Features, Model/SmartDevice, Model/SmartModule |
| smart/smartdevice.py | 42, 53, 66-78, 80-87, 100-168, 180-198, 200-205, 207-232, 234-259, 261-298, 300-319, 321-365, 367-402, 404-454, 456-566, 573-578, 597-602, 604-613, 615-635, 644-655, 657-664, 666-670, 673-675, 677-680, 687-692, 694-695, 697-702, 709-712, 714-727, 729-735, 737-821, 838-855, 857-887, 889-935 | Model/CamDevice, Model/Camera, Model/DeviceInfo, Model/Discover, Model/Features, Model/LightCalls, Model/LightEffects, Model/LightReading, Model/Lights, Model/Names, Model/OnSince, Model/Sensors, Model/SmartDevice, Model/SmartModule, Model/SmartReadings, Model/ThermostatModule |
| smart/smartmodule.py | 33-37, 67, 74-80, 89-110, 112-121, 123-126, 128-134, 162-167, 178-237, 258-263 | Model/ChildSetup, Model/Features, Model/LightCalls, Model/LightEffects, Model/Meter, Model/Sensors, Model/SmartModule, Model/ThermostatModule |
| smartcam/modules/__init__.py | 1-39 | Model/Features |
| smartcam/modules/alarm.py | 35-108, 115-122, 130-135, 137-143, 150-156, 163-181, 185, 187-216 | Model/Alarm, Model/Features |
| smartcam/modules/babycrydetection.py | 19-21, 23-36, 41, 47-49 | Model/Camera, Model/Features |
| smartcam/modules/battery.py | 18-84, 90-93, 95-98, 110-113 | Model/Camera, Model/Features |
| smartcam/modules/camera.py | 19-20, 23-27, 35-49, 51-56, 58-66, 68-87, 89-122, 124-129 | Model/Camera, Model/Features, Model/Stream |
| smartcam/modules/childsetup.py | 29-41, 54-80, 82-103, 105-112 | Model/ChildSetup, Model/Features |
| smartcam/modules/device.py | 29-66 | Model/Features |
| smartcam/modules/lensmask.py | 18-20, 22-25, 27-33 | Model/Camera |
| smartcam/modules/matter.py | 16-39 | Model/Features |
| smartcam/modules/motiondetection.py | 19-21, 23-36, 38-41, 43-49 | Model/Camera, Model/Features |
| smartcam/modules/pantilt.py | 8-9, 16-17, 19-89, 95-97, 99-101, 103-107 | Model/Camera, Model/Features |
| smartcam/modules/persondetection.py | 19-21, 23-36, 41, 47-49 | Model/Camera, Model/Features |
| smartcam/modules/petdetection.py | 19-21, 23-36, 41, 47-49 | Model/Camera, Model/Features |
| smartcam/modules/tamperdetection.py | 19-21, 23-36, 41, 47-49 | Model/Camera, Model/Features |
| smartcam/modules/time.py | 26-38, 77-92 | Model/Features, Model/TimeZone |
| smartcam/smartcamchild.py | 32-34, 36-62, 64-71, 73-85, 87-92, 95-121 | Model/CamChild, Model/CamDevice |
| smartcam/smartcamdevice.py | 26-38, 40-65, 67-70, 80-121, 127-139, 141-148, 150-164, 166-177, 179-185, 187-199, 201-235, 237-243, 245-250, 252-272 | Model/CamDevice, Model/Camera, Model/DeviceInfo, Model/Features, Model/Names |
| smartcam/smartcammodule.py | 54-64, 73-111 | Model/Camera, Model/SmartModule |
| transports/aestransport.py | 45-46, 55-60, 89-97, 102-116, 134-150, 152-169, 171-223, 225-258, 260-273, 300-359, 361-366, 368-384, 391-393, 396-414, 433-500 | Model/Aes, Model/DiscoverData, Model/ErrorCodes, Model/HttpSessions, Model/SslAes |
| transports/klaptransport.py | 74-75, 88-555 | Model/HttpSessions, Model/Klap |
| transports/linkietransport.py | 26-145 | Model/Linkie |
| transports/sslaestransport.py | 44-45, 48-49, 52-57, 92-129, 140-143, 145-154, 156-165, 167-196, 213-306, 308-334, 336-344, 346-356, 358-371, 373-380, 382-387, 389-427, 429-477, 479-487, 489-502, 504-553, 557-614, 616-645, 647-655, 662-668 | Model/ErrorCodes, Model/SslAes, Model/Stream |
| transports/ssltransport.py | 53-235 | Model/ErrorCodes, Model/Ssl |
| transports/xortransport.py | 36-182, 196, 198-203, 205-215, 217-223, 225-232 | Model/QueryLock, Model/Xor, Model/XorTransport |

## Parts of the code that are not modelled

Files without any modelled line (lines in parentheses). Within the files of the previous table every line outside of the ranges is not
modelled either: mostly constructors, plain properties, registration of features and log messages.

* `./`: cachedzoneinfo.py (27), modulemapping.py (25)
* `cli/`: __main__.py (6)
* `interfaces/`: alarm.py (75), childsetup.py (70), fan.py (23), time.py (26)
* `iot/`: iotcamera.py (42)
* `iot/modules/`: antitheft.py (10), countdown.py (7), schedule.py (7)
* `smart/modules/`: childdevice.py (56), devicemodule.py (33), triggerlogs.py (37)
* `smartcam/modules/`: childdevice.py (29), homekit.py (16), led.py (30)
* `transports/`: basetransport.py (55)

## Trusted base

* Lean 4.33.0: its kernel, and the elaborator for what the statements mean. No axiom is added; no `sorry`, `native_decide`, `bv_decide`,
  `implemented_by` or `partial` is used. No module of Mathlib is imported.
* The model being faithful to the cited Python lines. It was written by reading; the code was not run. The simplifications are stated in
  the comments of the model.
* Taken as parameters, with no assumption beyond those stated in the theorems: the AES block permutation, SHA-1, SHA-256, MD5, CRC32, RSA,
  base64 where it is not spelled out, JSON text, `str.lower`, the offsets of time zones, the network, the device, the clock.
* Floats are exact rationals, integers, or rationals with NaN (`Py/Num.lean`); which one is said at each use. Rounding errors and
  infinities are not modelled.
* Axioms each theorem of the manifest depends on, as `#print axioms` lists them (names without the prefix `Kasa.`):

  * Classical.choice, Quot.sound, propext (489): Retry.C04_iot_query, Retry.C04_smart_query, SmartCam.C06_cam_every_method, Smart.C06_batches, Smart.C08_complete_list, Smart.C08_batched_partial, Child.C10_envelope, Klap.C11_sequence, Klap.C11_reply, Klap.C12_klap_matched_credentials, Aes.C13_aes_partial, Aes.C13_aes_login_partial, Aes.C13_aes_readable_keys, Klap.C13_klap_live_session, SslAes.C14_traffic, SslAes.C14_encrypted_partial, SslAes.C14_numbers, SslAes.C14_downgrade, Redact.C15_table_iot, Redact.C15_table_smart, Redact.C15_table_discovery, Redact.C15_children, Redact.C15_nested_leak, Redact.C15_objects, Redact.C15_objects_iot, Discover.C16_first_datagram, Discover.C16_ports, Discover.C16_other_ports, Discover.C16_disjoint, Discover.C16_one_of_three_partial, Discover.C16_callback_once, Discover.C16_unsupported_once, Discover.C16_new_style, Discover.C16_legacy_device, Discover.C16_legacy_camera, Discover.C16_new_device, Discover.C17_result_partial, Discover.C17_stops, Discover.C17_unexpected_port, Discover.C17_no_protocol, Config.C19_round_trip_partial, Config.C19_no_timeout, Config.C19_defaults, Config.C19_injective, Config.C19_credentials, Connect.C20_connect_unsupported, Connect.C20_connect_arguments, Factory.C20_strict, Factory.C20_lenient, Factory.C20_function, Factory.C20_superset, Connect.C21_raise, Connect.C21_same_error, Connect.C21_return, Iot.C22_asked, Iot.C22_answers, Iot.C23_accepted, Iot.C23_refused_partial, Iot.C23_transport, Iot.C23_only_accepted, Iot.C23_malformed, SysInfo.C24_kind_partial, SysInfo.C24_no_type, SysInfo.C24_no_sysinfo, SysInfo.C24_camera, SysInfo.C24_nested, SysInfo.C24_null_name, Strip.C25_is_on, Strip.C25_is_off, Strip.C25_commands, Strip.C25_all_switched, Strip.C25_plug_on_since, Strip.C25_on_since, StripData.C26_own_partial, Emeter.C27_units_partial, Emeter.C27_absent_partial, Emeter.C27_as_reported, Emeter.C27_unknown, Emeter.C27_lookalike, Emeter.C27_null, Emeter.C27_smart, Emeter.C27_smart_status, Emeter.C28_stats, Emeter.C28_current, Emeter.C28_today_partial, Emeter.C28_earlier_month, Emeter.C28_usage, Emeter.C28_mixed, Lights.C29_hsv, Lights.C29_color_temp_partial, Lights.C29_brightness, Lights.C29_state_partial, Lights.C29_nan, Lights.C29_zero_sent, Lights.C29_dimmer, Lights.C29_dimmer_refused, Lights.C29_dimmer_brightness, Lights.C29_smart_brightness, Lights.C29_smart_hsv, Lights.C29_smart_color_temp_partial, Lights.C29_smart_temp_brightness, Feature.C30_number_partial, Feature.C30_nan, SmartDevice.C31_device, SmartDevice.C31_child, SmartModule.C31_queries, SmartModule.C31_backoff, SmartModule.C31_recovers, SmartModule.C32_command_partial, SmartModule.C32_disabled, CamDevice.C33_cam_fallback, CamDevice.C33_cam_combined, SmartDevice.C33_request, SmartDevice.C33_fallback, SmartDevice.C33_combined, SmartDevice.C33_reading, SmartDevice.C33_info, SmartDevice.C34_stuck, SmartDevice.C34_interrupted_partial, SmartDevice.C35_lists, SmartDevice.C35_update, SmartDevice.C36_queried_partial, SmartDevice.C36_lost, OnSince.C37_close_partial, OnSince.C37_history_partial, OnSince.C37_new, Presets.C38_names, Presets.C38_save_partial, Presets.C38_wrong_slot, Presets.C38_round_trip_partial, Presets.C38_choose, Presets.C38_not_set, Presets.C38_smart_save_partial, Presets.C38_smart_wrong_slot, Presets.C38_smart_brightness, Alarm.C39_volume_partial, Alarm.C39_volume_number, Alarm.C39_duration, Alarm.C39_play, Alarm.C39_camera, Alarm.C39_camera_volume, Alarm.C39_camera_play, Consumables.C40_single_partial, Consumables.C40_missing, Consumables.C40_extra, Consumables.C40_reset, Http.C42_after_settled, Http.C42_spaced_partial, Http.C42_no_delay, Http.C42_delay_bound, Http.C42_unspaced, DeviceInfo.C44_kind, DeviceInfo.C44_defined, DeviceInfo.C44_kept, DeviceInfo.C44_camera, SmartModule.C45_answers_partial, Setters.C46_transition_partial, Setters.C46_fan_partial, Setters.C46_target_partial, Setters.C46_offset_partial, Setters.C46_protection_partial, Setters.C46_protection_enable, Setters.C46_threshold_partial, Setters.C46_dimmer_partial, SmartCam.C47_get_name, SmartCam.C47_set_name, SmartCam.C47_error_raises, SmartCam.C47_answer_filed, SmartCam.C47_raw_batch, SmartCam.C47_raw_section, SmartCam.C47_empty_section_raises, SmartCam.C47_one_method_no_error_entry, SmartCam.C47_success_without_section_escapes, SmartCam.C47_empty_answer_escapes, SslAes.C49_digest, SslAes.C49_md5, Discover.C50_no_protocol, Factory.C50_class, Factory.C50_class_protocol_partial, Factory.C50_mismatch, Cli.C51_options, Connect.C51_closed, Connect.C51_returned, Connect.C51_tries_all_partial, Connect.C51_login_version, Iot.C53_failed_update, Iot.C53_first_update, Emeter.C54_sums, Emeter.C54_stats, Emeter.C54_status_partial, Emeter.C54_truncate, Emeter.C54_consumption, Emeter.C54_voltage, DeviceInfo.C56_camera_child, DeviceInfo.C56_camera_child_new, DeviceInfo.C56_camera_child_names, DeviceInfo.C56_camera_child_kind, DeviceInfo.C56_firmware, DeviceInfo.C56_smart_partial, DeviceInfo.C56_legacy, DeviceInfo.C56_camera, DeviceInfo.C56_dots, DeviceInfo.C57_separated, DeviceInfo.C57_plain, DeviceInfo.C57_missing, DeviceInfo.C57_smart_partial, DeviceInfo.C57_smart_missing, Time.C59_smart_instant, Time.C59_smart_zone, Time.C59_smart_offset, Time.C59_smart_naive, Time.C59_smart_old_region, Time.C59_camera_instant, Time.C59_same_zone, Time.C59_legacy_offsets_partial, Time.C59_zone_found, Time.C59_hours_counterexample, Time.C59_leap_counterexample, SmartDevice.C60_updated, SmartDevice.C60_spared, Linkie.C62_request, Linkie.C62_answer, Linkie.C62_succeeds, Linkie.C62_errors, Linkie.C62_plaintext_partial, Linkie.C62_lookalike, Names.C63_name, Names.C63_name_read, Names.C63_ssid_read, Names.C63_scan, Names.C63_join_refused, Names.C63_join, Names.C63_credentials, Names.C63_no_time, Names.C63_legacy_join, Names.C63_legacy_join_again, Names.C63_legacy_join_refused, Names.C63_legacy_scan, Names.C63_legacy_name, Names.C63_scan_new_field, LightEffects.C64_bulb_effects, LightEffects.C64_bulb_refused, LightEffects.C64_bulb_off, LightEffects.C64_bulb_select, LightEffects.C64_bulb_keeps_brightness, LightEffects.C64_bulb_after, LightEffects.C64_bulb_roundtrip_partial, LightEffects.C64_bulb_off_roundtrip, LightEffects.C64_bulb_name_lost, LightEffects.C64_bulb_stale, LightEffects.C64_legacy_refused, LightEffects.C64_legacy_select, LightEffects.C64_strip_off, LightEffects.C64_legacy_off, LightEffects.C64_strip_off_roundtrip, LightEffects.C64_strip_brightness, LightEffects.C64_legacy_roundtrip, LightReading.C66_bulb_step, LightReading.C66_bulb_history, LightReading.C66_smart_step, LightReading.C66_smart_history, LightReading.C66_dimmer_step, LightReading.C66_dimmer_history, LightReading.C66_dimmer_stale, Speaker.C67_volume_partial, Speaker.C67_speaker, Vacuum.C67_step, Vacuum.C67_history, Vacuum.C67_water_undoes_fan, Camera.C68_motor, Camera.C68_motor_undo, Thermostat.C69_mode, Thermostat.C69_state, Thermostat.C69_low_battery, Thermostat.C69_step, Thermostat.C69_history, Thermostat.C69_thermostat, JsonText.C70_round_trip, JsonText.C70_injective, JsonText.C70_legacy_wire, JsonText.C70_config, JsonText.C70_truncated, JsonText.C70_trailing, JsonText.C70_no_bound, JsonText.C70_one_line, JsonText.C70_escape, JsonText.C70_bad_escape, Stream.C71_url, Stream.C71_credentials_partial, Stream.C71_space, Stream.C71_injective, Stream.C71_when, Stream.C71_hash, Stream.C71_hash_kept, Stream.C71_hash_lost, Stream.C71_foreign_hash, ChildSetup.C72_requests, ChildSetup.C72_result, ChildSetup.C72_pair, ChildSetup.C72_history, ChildSetup.C72_reported_partial, ChildSetup.C72_unknown, ChildSetup.C72_again, ChildSetup.C72_no_model, Motion.C73_triggered_partial, Motion.C73_percent_partial, Motion.C73_odd, Motion.C73_not_zero, Motion.C73_division, Motion.C73_names, Motion.C73_shown, Motion.C73_history, Motion.C73_unsupported, Settings.C74_fields, Settings.C74_history_partial, Settings.C74_undone, EndToEnd.C75_klap_once, EndToEnd.C75_queries_once, EndToEnd.C75_query_result, EndToEnd.C75_setter, EndToEnd.C75_klap_reliable, LegacyEndToEnd.C76_legacy_once, LegacyEndToEnd.C76_legacy_query, LegacyEndToEnd.C76_setter, LegacyEndToEnd.C76_legacy_reliable, Features.C77_smart_partial, Features.C77_legacy, Features.C77_camera, Features.C77_smart_lost, Features.C77_smart_clash_lost, Features.C77_legacy_lost, Features.C77_camera_stuck, Features.C77_legacy_shown, Features.C77_camera_shown, Features.C77_smart_shown_partial, Features.C77_volume_hidden, AesEndToEnd.C78_aes_once, AesEndToEnd.C78_queries_once, AesEndToEnd.C78_query_result, AesEndToEnd.C78_setter, AesEndToEnd.C78_aes_reliable, AesEndToEnd.C78_setter_works, CamDevice.C79_children, CamDevice.C79_silent_child, CamDevice.C79_own_info, CamDevice.C79_known_partial, Cli.C80_settings, Cli.C81_found, Cli.C81_not_found, Cli.C81_first, Cli.C81_once, Cli.C81_ends_partial, Cli.C81_hangs, CliChild.C82_parent, CliChild.C82_child, CliChild.C82_unique, CliChild.C82_reported_partial, CliChild.C82_prompt_aborted, CliChild.C82_refused, CliCommand.C83_works_partial, SslEndToEnd.C85_ssl_once, SslEndToEnd.C85_queries_once, SslEndToEnd.C85_query_result, SslEndToEnd.C85_setter, SslEndToEnd.C85_ssl_reliable, SslEndToEnd.C85_recovers, SslEndToEnd.C85_setter_works, CamEndToEnd.C86_cam_once, CamEndToEnd.C86_queries_once, CamEndToEnd.C86_query_result, CamEndToEnd.C86_setter, AesEndToEnd.C87_aes_recovers, CamEndToEnd.C87_cam_reliable, CamEndToEnd.C87_recovers, CamEndToEnd.C87_setter_recovers, CamEndToEnd.C87_setter_works, EndToEnd.C87_klap_recovers, EndToEnd.C87_klap_exhausted, SslEndToEnd.C87_https_recovers, DiscoverTasks.C88_result, DiscoverTasks.C88_full_time, DiscoverTasks.C88_callbacks, DiscoverTasks.C88_one_callback, DiscoverTasks.C88_cancel, DiscoverTasks.C88_cancel_stops, DiscoverTasks.C88_target_stops, DiscoverTasks.C88_ends, DiscoverTasks.C88_final, DiscoverTasks.C88_silent, DiscoverTasks.C88_closed, DiscoverTasks.C88_late_device, DiscoverTasks.C88_cancel_lost, DiscoverTasks.C88_close_race, DiscoverTasks.C88_no_packets, HttpSessions.C89_given_session_kept, HttpSessions.C89_given_session_used, HttpSessions.C89_one_session, HttpSessions.C89_request_open, HttpSessions.C89_closed, HttpSessions.C89_own_cookies, HttpSessions.C89_shared_cookies, HttpSessions.C89_undisturbed_cookies, EndToEnd.C90_klap_reads, EndToEnd.C90_klap_reads_back, EndToEnd.C90_klap_update, AesEndToEnd.C90_aes_reads, AesEndToEnd.C90_aes_reads_back, AesEndToEnd.C90_aes_update, SslEndToEnd.C90_https_reads, SslEndToEnd.C90_https_reads_back, SslEndToEnd.C90_https_update, LegacyEndToEnd.C90_legacy_reads, LegacyEndToEnd.C90_legacy_reads_back, LightNetwork.C91_klap, LightNetwork.C91_aes, LightNetwork.C91_https, LightNetwork.C91_last_operation, LightNetwork.C91_bulb, ChildNetwork.C92_klap_others, ChildNetwork.C92_klap_reads_back, ChildNetwork.C92_klap_update, ChildNetwork.C92_aes_others, ChildNetwork.C92_aes_reads_back, ChildNetwork.C92_aes_update, ChildNetwork.C92_https_others, ChildNetwork.C92_https_reads_back, ChildNetwork.C92_https_update, IotReadings.C93_unheard, IotReadings.C93_told, IotReadings.C93_found, IotReadings.C93_updated, IotReadings.C93_modules_stay, IotReadings.C93_emeter, IotReadings.C93_found_no_modules, IotReadings.C93_strip_not_updated, IotReadings.C93_raises_partial, CamNetwork.C94_reads_truly, CamNetwork.C94_reads_back, CamNetwork.C94_update_shows, CamNetwork.C94_switches, CamNetwork.C94_last_operation, Deprecated.C95_answers_partial, CliDiscover.C98_ends, CliDiscover.C98_list, CliDiscover.C98_columns, CliDiscover.C98_detail_lost, CliDiscover.C98_counts, CliDiscover.C98_raw, DiscoverData.C99_decrypts, DiscoverData.C99_same_device, DiscoverData.C99_otherwise, Rules.C100_commands, Rules.C100_request, Rules.C100_cli_delete, Meter.C101_daily, Meter.C101_monthly, Meter.C101_usage, Meter.C101_commands, Meter.C101_refused, Meter.C101_strip_daily, Meter.C101_strip_monthly, Meter.C101_strip_erase, Meter.C101_smart_status, Meter.C101_supports_legacy, Meter.C101_supports_shown, Meter.C101_supports_error, Meter.C101_supports_smart_counterexample, Behaviours.C102_read, Behaviours.C102_set_partial, Behaviours.C102_set_counterexample, Behaviours.C102_preset_counterexample, Behaviours.C102_orders_partial, Behaviours.C102_orders_counterexample, Behaviours.C102_action_counterexample, Behaviours.C102_told, Behaviours.C102_before_update, CliGroups.C103_legacy, CliGroups.C103_smart, CliGroups.C103_mistakes, CliGroups.C103_raw, IotSetup.C104_modules_partial, IotSetup.C104_once, IotSetup.C104_switch_counterexample, IotSetup.C104_asked, SmartReadings.C105_shown_partial, SmartReadings.C105_before_counterexample, SmartReadings.C105_found_again_counterexample, IotCloud.C106_connected, IotCloud.C106_requests_partial
  * Quot.sound, propext (225): Xor.C01_encrypt_eq_frame, Xor.C01_encrypt_refuses, Xor.C01_round_trip, Xor.C01_decrypt_bijective, Xor.C02_read_one, Xor.C02_read_all, Xor.C02_truncated_fails, Xor.C02_never_short, XorT.C03_own_answer, XorT.C03_failure_drops_connection, XorT.C03_failure_class, XorT.C03_succeeds_when_nothing_fails, Retry.C04_any_environment, Retry.C04_negative_count, Lock.C05_exclusive, Lock.C05_serial, Lock.C05_lock_released, Lock.C05_transfer, Lock.C05_own_answer, Smart.C06_every_method, Smart.C06_nothing_else, Smart.C06_honest_device, Smart.C06_batch_size_one_partial, Smart.C06_batch_size_one_drops, Smart.C06_batch_size_one_key_error, Smart.C06_empty_batch_sent, Smart.C07_only_to_one, Smart.C07_sticky, Smart.C07_fallback, Smart.C07_recovers, Smart.C08_any_device, Smart.C08_requeried_list_truncated, Codes.C09_protocol, Codes.C09_protocol_entry, Codes.C09_aes, Codes.C09_disjoint, Codes.C09_any_json_partial, Codes.C09_unhashable_code_escapes, Codes.C09_ssl_partial, Codes.C09_ssl_unknown_code_escapes, Child.C10_single, Child.C10_no_data, Child.C10_multi_partial, Child.C10_cam_envelope, Child.C10_cam_partial, Child.C10_unanswered_method_dropped, Child.C10_child_error_ignored, Child.C10_cam_unanswered_method_dropped, Child.C10_cam_envelope_error_escapes, Klap.C11_distinct_ivs, Klap.C11_exhausted_stays_exhausted, Klap.C12_completed, Klap.C12_refused, Klap.C12_failed, Klap.C12_genuine_v1, Klap.C12_genuine_v2, Aes.C13_aes_bad_key, Redact.C15_hidden_partial, Redact.C15_input_unchanged, Discover.C18_probe, Discover.C18_too_long, Config.C19_from_values, Iot.C22_requests, Iot.C22_no_needless_split, Iot.C23_request, Strip.C25_children, StripData.C26_shared, StripData.C26_sibling_overwrites, Lights.C29_default_state, Lights.C29_state_unchecked, Lights.C29_effect_brightness, Lights.C29_smart_state_partial, Lights.C29_smart_state_unchecked, Lights.C29_smart_state_contradiction, Feature.C30_read_only, Feature.C30_choice, Feature.C30_action, Feature.C30_range_kept, Feature.C30_stale_range, SmartDevice.C34_empty_request, OnSince.C37_stable, OnSince.C37_stale, Presets.C38_smart_mixed, Presets.C38_current, Alarm.C39_sound, Feature.C41_child, Feature.C41_by_name, Feature.C41_by_index, Time.C43_round_trip, Time.C43_negative, Time.C43_lookup, Time.C43_found, Time.C43_above_again, Time.C43_unsupported, Time.C43_unsupported_offset, Time.C43_matching, DeviceInfo.C44_child, SmartModule.C45_error, SmartModule.C45_lone_answer, SmartModule.C45_camera_several, Setters.C46_transition_other, Setters.C46_nan, Setters.C46_threshold_type, Setters.C46_dimmer_times, Feature.C48_unique, Feature.C48_duplicate, Feature.C55_partial, Feature.C55_stale, DeviceInfo.C56_mapped, DeviceInfo.C56_camera_names, Http.C58_answer, Http.C58_own_exceptions, Time.C59_legacy_partial, Time.C59_legacy_naive, Time.C59_legacy_zone_lost, Time.C59_camera_host_time, Ssl.C61_session, Ssl.C61_login, Ssl.C61_answer, Ssl.C61_once, Ssl.C61_recovers, Ssl.C61_foreign_errors, Names.C63_camera_name, LightEffects.C64_tables, LightEffects.C64_strip_select, LightEffects.C64_strip_keeps_brightness, LightEffects.C64_strip_roundtrip, Firmware.C65_refused, Firmware.C65_not_started, Firmware.C65_watched, Firmware.C65_returns, Firmware.C65_failed_check, Firmware.C65_not_raised, LightReading.C66_bulb_reads, LightReading.C66_smart_reads, LightReading.C66_dimmer_reads, Speaker.C67_volume_nan_counterexample, Vacuum.C67_start_partial, Vacuum.C67_pause_partial, Vacuum.C67_home, Vacuum.C67_pause_start, Vacuum.C67_restarts, Vacuum.C67_pause_ignored, Vacuum.C67_numbers, Vacuum.C67_others, Vacuum.C67_last_clean, Vacuum.C67_records_once, Camera.C68_shown, Camera.C68_unavailable, Camera.C68_others, Camera.C68_step, Camera.C68_history, Camera.C68_power, Camera.C68_always_charging, Thermostat.C69_others, Thermostat.C69_thermostat_features, ChildSetup.C72_unpair, Motion.C73_latest, Settings.C74_shown, Settings.C74_other_undone, Features.C77_usable, Cli.C80_refused, Cli.C80_host, Cli.C80_alias_partial, Cli.C80_command, Cli.C80_status_partial, Cli.C80_failure, Cli.C80_credentials_partial, Cli.C80_typical, Cli.C80_alias_ignored, Cli.C80_alias_unknown, Cli.C80_abort, Cli.C80_credentials_dropped, Cli.C80_hash_dropped, Cli.C80_update_leak, CliChild.C82_update, CliCommand.C83_only_partial, CliCommand.C83_done_partial, CliCommand.C83_unsupported_partial, CliCommand.C83_confirmed, CliCommand.C83_preset_temperature, CliCommand.C83_behavior_ignored, CliCommand.C84_tool, CliCommand.C84_document_partial, CliCommand.C84_silent, Deprecated.C95_energy, Deprecated.C95_light, Deprecated.C95_replaced, Deprecated.C95_missing, Deprecated.C95_other_names, Deprecated.C95_lost, Deprecated.C95_answers_counterexample_range, Deprecated.C95_answers_counterexample_modules, Deprecated.C95_package, Listing.C96_listed, Listing.C96_feature_command, Listing.C96_state, Listing.C96_text, Listing.C96_choice, Listing.C96_invalid_partial, Listing.C96_invalid_counterexample, Sensors.C97_reported, Sensors.C97_battery_low_partial, Sensors.C97_battery_low_counterexample, Sensors.C97_overheated, Sensors.C97_warnings, Sensors.C97_water, Sensors.C97_time, Sensors.C97_auto_off, Sensors.C97_overloaded, Sensors.C97_cloud, Sensors.C97_offered, CliDiscover.C98_whole, CliDiscover.C98_so_far, DiscoverData.C99_one_key, Rules.C100_shown_partial, Rules.C100_shown_counterexample, Meter.C101_supports_smart_partial, CliGroups.C103_tags, CliGroups.C103_prints_partial, CliGroups.C103_prints_counterexample, CliGroups.C103_listed, CliGroups.C103_help, CliGroups.C103_help_counterexample, CliGroups.C103_also_counterexample
  * none (13): Feature.C30_default_limits, OnSince.C37_off, OnSince.C37_off_device, Setters.C46_transition_limit, Setters.C46_transitions, Setters.C46_auto_off, Setters.C46_dimmer_limits, Discover.C52_returned, Http.C58_kinds_partial, Http.C58_timeout_missed, Thermostat.C69_frost_minimum_counterexample, Listing.C96_category, Meter.C101_supports_each
  * propext (48): Redact.C15_faithful, Redact.C15_any_depth, Redact.C15_noninterference, Discover.C18_answer, Config.C19_omits_none, Presets.C38_unknown, Consumables.C40_shared, Time.C43_above, SmartModule.C45_no_data, SmartModule.C45_camera, SmartModule.C45_legacy, Discover.C52_closed_partial, Discover.C52_left_open, Discover.C52_close_fails, Time.C59_camera_local_partial, LightEffects.C64_strip_refused, LightEffects.C64_strip_effect, LightEffects.C64_strip_custom_inactive, Firmware.C65_check, Vacuum.C67_status, Vacuum.C67_error_taken, Vacuum.C67_refused, Thermostat.C69_battery_partial, Motion.C73_light, Cli.C81_not_retried, CliCommand.C83_schedule_list, CliCommand.C83_negative_index, CliCommand.C83_time_ignored, CliCommand.C84_prints, CliCommand.C84_asks, CliCommand.C84_output, HttpSessions.C89_close_in_flight, HttpSessions.C89_shared_cookie_lost, Listing.C96_state_stops, Listing.C96_one_text, Listing.C96_value, CliDiscover.C98_detail_partial, CliDiscover.C98_detail_counterexample, CliDiscover.C98_closed_partial, CliDiscover.C98_closed_counterexample, Rules.C100_total, Meter.C101_supports_strip, CliGroups.C103_loaded, CliGroups.C103_tool, CliGroups.C103_also_partial, SmartReadings.C105_signal_counterexample, IotCloud.C106_fields_counterexample, IotCloud.C106_nothing_sent_counterexample
