{"id": "C01", "title": "Legacy cipher round trip and length prefix", "statement": "XorEncryption.encrypt(p) is a 4-byte big-endian count of the bytes of p followed by exactly that many cipher bytes, XorEncryption.decrypt of those cipher bytes gives p back, and re-encrypting any decrypted payload gives the same cipher bytes; a payload of 2^32 bytes or more is refused instead of being sent with a wrong length.", "quantifier": "every byte string of any length", "why_tests_cant": "The key stream depends on every preceding byte, so a sample of payloads says nothing about the others.", "anchors": ["kasa/transports/xortransport.py: XorEncryption.encrypt, XorEncryption.decrypt, _xor_payload, _xor_encrypted_payload"]}
{"id": "C02", "title": "Legacy TCP framing is independent of segmentation", "statement": "However the bytes a device sends are cut into TCP segments, the client reads from the stream exactly the messages the device wrote, in order; a stream that ends inside a message is reported as a failure and never yields a shortened message.", "quantifier": "every list of messages and every way of cutting their byte stream into chunks", "why_tests_cant": "The number of segmentations is exponential in the stream length.", "anchors": ["kasa/transports/xortransport.py: XorTransport._execute_send"]}
{"id": "C03", "title": "A legacy response always belongs to the request that returned it", "statement": "Across any sequence of requests on one TCP transport, with any of them failing, timing out or being cancelled at any point of connect, write or read, a request that returns a value returns the device's answer to that very request, never a late answer to an earlier one; and after any failure the connection is gone.", "quantifier": "every history of requests and every placement of failures and cancellations inside them", "why_tests_cant": "Needs a late response left over by a failure at exactly the wrong point of a history.", "anchors": ["kasa/transports/xortransport.py: XorTransport.send, _connect, _execute_send, close_without_wait, reset"]}
{"id": "C04", "title": "Query retries are bounded and follow the error class", "statement": "A query makes at most retry_count+1 transport sends; it returns the answer of the first send that succeeds; authentication errors and plain device errors are raised at once without another send; retryable errors, timeouts and connection errors are retried until the budget is used up and then the last one is raised; the transport is reset after every failure except a connection error, before any further send.", "quantifier": "every retry_count and every sequence of transport outcomes", "why_tests_cant": "The space of outcome sequences is unbounded; unit tests script two or three outcomes.", "anchors": ["kasa/protocols/iotprotocol.py: IotProtocol._query", "kasa/protocols/smartprotocol.py: SmartProtocol._query"]}
{"id": "C05", "title": "Concurrent queries on one protocol never interleave on the wire", "statement": "When any number of tasks call query() on the same protocol object, at any moment at most one of them is between its first send and its final result, so each task receives the outcome of its own request; a task that is cancelled or fails releases the protocol for the next one.", "quantifier": "every number of tasks and every schedule of their steps, including failures and cancellations", "why_tests_cant": "Interleavings at await points cannot be enumerated by tests.", "anchors": ["kasa/protocols/iotprotocol.py: IotProtocol.query, _query_lock", "kasa/protocols/smartprotocol.py: SmartProtocol.query"]}
{"id": "C06", "title": "A batched SMART query answers every method that was asked for", "statement": "SmartProtocol.query with several methods and a batch size above one either raises or returns a result that has an entry for every requested method and no other; each entry is the device's result for that method or its error code; no wire request carries more than batch-size methods and no method is sent twice in batches. With batch size one the same must hold.", "quantifier": "every request dictionary, batch size and device response behaviour (including responses that are missing, shuffled or errors)", "why_tests_cant": "The combination of request sizes, batch boundaries and dropped responses is unbounded.", "anchors": ["kasa/protocols/smartprotocol.py: SmartProtocol._execute_multiple_query, _execute_query, FORCE_SINGLE_REQUEST"]}
{"id": "C07", "title": "Batch size falls back to single requests after a batch failure", "statement": "If the device rejects a multi-request batch as undecodable or with an unknown internal error, the protocol lowers its batch size to one, retries, and from then on never sends a multi-request on that protocol object again.", "quantifier": "every history of queries on a protocol object", "why_tests_cant": "A property of the object's whole history after one event.", "anchors": ["kasa/protocols/smartprotocol.py: SmartProtocol._execute_multiple_query"]}
{"id": "C08", "title": "List paging returns the whole list and terminates", "statement": "For a response that announces `sum` items, the client asks for further pages starting at the number of items it holds, appends them in order, and stops when it has at least `sum` items or the device sends an empty page; against a device that serves its list page by page the result is exactly the device's list; against any device the number of extra requests is bounded by the announced sum.", "quantifier": "every list length, page size sequence and (mis)behaving device", "why_tests_cant": "Termination and completeness for every page-size pattern.", "anchors": ["kasa/protocols/smartprotocol.py: _handle_response_lists", "kasa/protocols/smartcamprotocol.py: _get_list_request"]}
{"id": "C09", "title": "SMART error codes are classified the same way everywhere", "statement": "Every integer error code in a SMART response leads to exactly one outcome: 0 is success; codes listed as retryable raise the retryable error; codes listed as authentication errors raise AuthenticationError; every other code, known or unknown, raises DeviceError carrying that code (unknown codes reported as an internal unknown error); and a non-zero code is never turned into a success. Every failure a caller sees is a KasaException.", "quantifier": "every integer error code, for every transport/protocol that interprets codes", "why_tests_cant": "Codes are arbitrary integers chosen by firmware.", "anchors": ["kasa/exceptions.py: SmartErrorCode, SMART_RETRYABLE_ERRORS, SMART_AUTHENTICATION_ERRORS", "kasa/protocols/smartprotocol.py: _handle_response_error_code", "kasa/transports/aestransport.py: _handle_response_error_code", "kasa/transports/ssltransport.py: _handle_response_error_code"]}
{"id": "C10", "title": "Child queries reach the right child and come back unwrapped", "statement": "A query made through a child device is sent to the parent wrapped with that child's id, carries all methods and parameters unchanged, and its result maps every method to the child's own result or error; an error for the envelope or for the child is raised, not returned as data.", "quantifier": "every request, child id and response", "why_tests_cant": "The wrapping nests arbitrary requests and per-method errors.", "anchors": ["kasa/protocols/smartprotocol.py: _ChildProtocolWrapper._get_method_and_params, _query", "kasa/protocols/smartcamprotocol.py: _ChildCameraProtocolWrapper._query"]}
{"id": "C11", "title": "KLAP requests never reuse a sequence number and are decryptable", "statement": "Within one KLAP session the n-th request uses sequence number s+n, no two requests of the session use the same IV, the device can recover the exact payload of each request from it, and the client recovers the exact payload of the device's reply to it; when the 32-bit counter is exhausted the request fails instead of wrapping around.", "quantifier": "every payload, every starting sequence number and every number of requests", "why_tests_cant": "Needs 2^31 requests, and every payload length for the padding.", "anchors": ["kasa/transports/klaptransport.py: KlapEncryptionSession"]}
{"id": "C12", "title": "KLAP handshake succeeds only for known credentials", "statement": "A KLAP handshake completes only if the device proves knowledge of the user's credentials, one of the library's default credentials, or blank credentials, tried in that order; otherwise AuthenticationError is raised; the session keys are derived from exactly the credentials that matched; and no application request is sent before both handshake steps were acknowledged with status 200.", "quantifier": "every device response in both handshake steps and every history of sends, resets and failures", "why_tests_cant": "An adversarial or faulty device can answer anything at any step.", "anchors": ["kasa/transports/klaptransport.py: perform_handshake1, perform_handshake2, perform_handshake, send, reset"]}
{"id": "C13", "title": "No request is encrypted with an expired or reset session", "statement": "For the KLAP and AES transports, in every history of sends, device answers, resets, clock readings and failures, an application request is only sent when a handshake (and for AES a login) completed since the last reset or rejected session and its lifetime (session timeout minus the safety margin) has not run out at the moment of the check.", "quantifier": "every history of operations and every clock behaviour", "why_tests_cant": "Depends on the whole history and on the clock.", "anchors": ["kasa/transports/klaptransport.py: _handshake_session_expired, send", "kasa/transports/aestransport.py: _handshake_session_expired, send, perform_handshake, perform_login"]}
{"id": "C14", "title": "The camera transport keeps its tags unique and its traffic encrypted", "statement": "In every history of an SslAes transport, each request of a session carries a tag computed with a sequence number one higher than the previous request's, starting at the number the device announced; and after a handshake in which the device offered the secure login, requests are sent encrypted.", "quantifier": "every history of handshakes (secure or less secure), sends, errors and resets", "why_tests_cant": "Needs a history that mixes login kinds.", "anchors": ["kasa/transports/sslaestransport.py: send_secure_passthrough, perform_handshake1, perform_handshake2, try_perform_less_secure_login, reset, send"]}
{"id": "C15", "title": "Redacted logs contain no sensitive value and are otherwise faithful", "statement": "In the value returned by redact_data, at any nesting depth, a non-empty value under a sensitive key is replaced by its redacted form and never by the original unless the redactor maps it to itself; everything not under a sensitive key keeps its place and value; and the input is left unchanged.", "quantifier": "every JSON-like value and every redactor table", "why_tests_cant": "Arbitrary nesting of dicts and lists.", "anchors": ["kasa/protocols/protocol.py: redact_data, mask_mac"]}
{"id": "C16", "title": "Discovery reports each host at most once", "statement": "For any sequence of datagrams, the discovered-device callback runs at most once per host, and every host whose first datagram came from a known discovery port ends up in exactly one of: discovered devices, unsupported devices, invalid devices (authentication or other library error).", "quantifier": "every sequence of datagrams from any hosts and ports with any contents", "why_tests_cant": "UDP duplicates, reordering and garbage are unbounded.", "anchors": ["kasa/discover.py: _DiscoverProtocol.datagram_received, _handle_discovered_event"]}
{"id": "C17", "title": "Discovering a single host finds it when it answers", "statement": "When discovery targets one host and that host sends a well-formed answer on a discovery port, the search stops sending, and discover_single returns the device (or raises the error recorded for it), whatever other datagrams arrive before.", "quantifier": "every sequence of datagrams that contains a valid answer from the target", "why_tests_cant": "Depends on what precedes the valid datagram.", "anchors": ["kasa/discover.py: _DiscoverProtocol, Discover.discover_single"]}
{"id": "C18", "title": "The new-style discovery probe is well formed", "statement": "The probe built for new-style discovery has a 16-byte header whose length field is the payload length and whose checksum field equals the CRC computed with the fixed initial value in that field, followed by the payload; and the payload of a response is recovered by dropping the 16 header bytes.", "quantifier": "every payload (public key) and random serial", "why_tests_cant": "Every key and serial.", "anchors": ["kasa/discover.py: _AesDiscoveryQuery.generate_query, _get_discovery_json"]}
{"id": "C19", "title": "DeviceConfig serialisation round trip without leaking secrets", "statement": "Device.Config.from_dict(config.to_dict()) equals the config for every config without a custom HTTP client; fields that are None are omitted; credentials are left out or replaced by the hash exactly as the arguments of to_dict_control_credentials ask; an unknown connection type is refused with a KasaException.", "quantifier": "every configuration", "why_tests_cant": "Every combination of optional fields.", "anchors": ["kasa/deviceconfig.py: DeviceConfig, DeviceConnectionParameters, to_dict_control_credentials"]}
{"id": "C20", "title": "Every connection type selects one protocol and transport", "statement": "get_protocol is a function of device family, encryption type, https flag and login version; the combinations it accepts are exactly the documented table, non-strict mode accepts a superset, and unsupported ones yield None, which connect() turns into UnsupportedDeviceError.", "quantifier": "all combinations of family, encryption, https, http-port and login version", "why_tests_cant": "The product of the options is large and each wrong entry is a silent mis-connection.", "anchors": ["kasa/device_factory.py: get_protocol, get_device_class_from_family"]}
{"id": "C21", "title": "connect() never leaks a connection", "statement": "If connect() raises, for any reason at any point, the protocol it created has been closed; if it returns, the returned device's protocol is open and the device was updated.", "quantifier": "every failure point in connect", "why_tests_cant": "Every exception at every await.", "anchors": ["kasa/device_factory.py: connect, _connect"]}
{"id": "C22", "title": "Splitting a legacy update loses no module query", "statement": "IotDevice.update sends every supported module's query exactly once, packs consecutive queries so that no request with more than one module exceeds the device's response budget, and the stored state afterwards contains every response key together with everything that was already known.", "quantifier": "every list of modules with any queries and size estimates and every budget", "why_tests_cant": "Packing boundaries for every size sequence.", "anchors": ["kasa/iot/iotdevice.py: _modular_update, update", "kasa/iot/iotmodule.py: _merge_dict"]}
{"id": "C23", "title": "Legacy command results are unwrapped or raised", "statement": "A legacy device command returns the inner result of exactly the command sent when the device accepted it; a missing target, a non-zero error code or a transport failure is raised as KasaException and never returned as data.", "quantifier": "every response shape", "why_tests_cant": "Firmware returns arbitrary shapes.", "anchors": ["kasa/iot/iotdevice.py: _query_helper, _create_request"]}
{"id": "C24", "title": "Legacy device kind detection is total and deterministic", "statement": "For every system information record the library decides one device kind: a device naming itself a dimmer is a dimmer; of the rest, plug types are strips if they list children, wall switches if their name mentions a light, and plugs otherwise; bulb types are light strips if they have a length, and bulbs otherwise; any other type is a plug. A record without a type is refused with KasaException, as is an answer without a record.", "quantifier": "every sysinfo record", "why_tests_cant": "Arbitrary key combinations.", "anchors": ["kasa/iot/iotdevice.py: _get_device_type_from_sys_info", "kasa/device_factory.py: get_device_class_from_sys_info"]}
{"id": "C25", "title": "A power strip is on exactly when a socket is on", "statement": "After an update, strip.is_on holds iff some child is on; turn_on sends an on command to exactly the children that are off and leaves all on; turn_off the converse; on_since is the earliest of the children's.", "quantifier": "every number of sockets and every combination of states", "why_tests_cant": "Every combination.", "anchors": ["kasa/iot/iotstrip.py: IotStrip.is_on, turn_on, turn_off, on_since"]}
{"id": "C26", "title": "Children of a legacy strip keep their own data", "statement": "After updating a legacy strip, the data each child's module reports is what the device answered for that child, not what it answered for a sibling or for the strip.", "quantifier": "every number of children, modules, answers and updates", "why_tests_cant": "An aliasing effect that appears only with several children and distinct answers.", "anchors": ["kasa/iot/iotstrip.py: IotStrip.update, IotStripPlug.__init__", "kasa/iot/iotdevice.py: _modular_update"]}
{"id": "C27", "title": "Energy readings convert units consistently", "statement": "An EmeterStatus gives the same physical quantity whether the device reports base units or milli-units: reading a value in one unit and the other differs by exactly the factor 1000, and a reading the device did not report is not invented.", "quantifier": "every status dictionary and every value", "why_tests_cant": "All values and key combinations.", "anchors": ["kasa/emeterstatus.py: EmeterStatus.__getitem__", "kasa/iot/iotstrip.py: merge_sums, StripEmeter"]}
{"id": "C28", "title": "Energy statistics map each period to its value", "statement": "Daily and monthly statistics contain exactly one entry per reported period with the last reported value for it, converted to the requested unit; asking for the current day or month gives that entry, and when it is absent zero for energy and None for usage time.", "quantifier": "every list of statistics entries and every current date", "why_tests_cant": "Arbitrary lists and dates.", "anchors": ["kasa/iot/modules/emeter.py: _convert_stat_data", "kasa/iot/modules/usage.py: _convert_stat_data"]}
{"id": "C29", "title": "Out-of-range light settings are never sent", "statement": "Setting brightness, hue, saturation or colour temperature on a legacy or SMART light either raises before anything is sent or sends a request whose values lie in the documented ranges; brightness 0 turns the light off instead of being sent as a brightness.", "quantifier": "every argument value and device state", "why_tests_cant": "All integers, all light states.", "anchors": ["kasa/iot/iotbulb.py: _set_light_state, _set_hsv, _set_color_temp, _set_brightness", "kasa/iot/iotdimmer.py", "kasa/iot/modules/light.py: set_state", "kasa/smart/modules/brightness.py", "kasa/smart/modules/color.py", "kasa/smart/modules/colortemperature.py", "kasa/smart/modules/light.py: set_state"]}
{"id": "C30", "title": "A feature never forwards an invalid value", "statement": "Feature.set_value calls the underlying setter only for a settable feature and, for number features, only with a number inside [minimum, maximum], for choice features only with one of the choices; otherwise it raises ValueError and nothing is sent.", "quantifier": "every feature definition and every value", "why_tests_cant": "All values, including the odd ones (booleans, NaN).", "anchors": ["kasa/feature.py: Feature.set_value, range, minimum_value, maximum_value"]}
{"id": "C31", "title": "Failing modules back off, are disabled, and recover", "statement": "In every history of SMART updates, a module whose query failed n times in a row is not queried again until 30*n seconds after the last of them, unless one of its commands was called in between; after ten failures in a row it is never queried again; a successful update resets the count; and a module that has not failed is queried at most once per its minimum interval and at every update when the interval is zero.", "quantifier": "every history of update times and outcomes", "why_tests_cant": "Histories with ten or more failures at arbitrary times.", "anchors": ["kasa/smart/smartmodule.py: _set_error, update_interval, _should_update, disabled", "kasa/smart/smartdevice.py: _handle_module_post_update, _modular_update"]}
{"id": "C32", "title": "A setter makes the module refresh on the next update", "statement": "After a module command decorated to allow an update, whether it succeeded or raised, the next device update queries that module again regardless of its interval.", "quantifier": "every history", "why_tests_cant": "Interplay with intervals and error back-off.", "anchors": ["kasa/smart/smartmodule.py: allow_update_after, _should_update"]}
{"id": "C33", "title": "One failing module query does not lose the others", "statement": "If the combined module query of a SMART update fails, every module method is queried individually; afterwards the stored state holds the device's answer for each method that works and an error marker for exactly those that fail, and reading a failed module raises while the others read normally.", "quantifier": "every set of methods and every failure pattern", "why_tests_cant": "All failure patterns over all module sets.", "anchors": ["kasa/smart/smartdevice.py: _handle_modular_update_error, _modular_update", "kasa/smart/smartmodule.py: data"]}
{"id": "C34", "title": "A failed first update can be repeated", "statement": "If the first update() of a SMART device raises because of a transient error, calling update() again when the device answers normally leaves the device in the same state as if the first call had succeeded.", "quantifier": "every failure point of the first update", "why_tests_cant": "Needs a crash at each point of initialisation followed by a retry.", "anchors": ["kasa/smart/smartdevice.py: update, _negotiate, _initialize_modules"]}
{"id": "C35", "title": "Children of a SMART device follow the device's list", "statement": "After each update the children are exactly the reported children that have components and can be created; children already known keep their identity; children no longer reported disappear; and each child's info is the last one reported for it.", "quantifier": "every sequence of child lists", "why_tests_cant": "All histories of joins and leaves.", "anchors": ["kasa/smart/smartdevice.py: _create_delete_children, _update_children_info"]}
{"id": "C36", "title": "SMART child modules keep their data between updates", "statement": "After a successful update of a SMART child device, each of its modules can read the data of the latest update in which it was queried, also when a later update queried only other modules.", "quantifier": "every history of updates and module intervals", "why_tests_cant": "Depends on which modules are due at which update.", "anchors": ["kasa/smart/smartchilddevice.py: SmartChildDevice._update", "kasa/smart/smartmodule.py: data"]}
{"id": "C37", "title": "on_since follows the device", "statement": "on_since is None when the device is off; otherwise it differs by at most five seconds from the turn-on time computed from the last update, and it does not change between updates whose computed values differ by at most five seconds.", "quantifier": "every history of reported times and on-times", "why_tests_cant": "Histories with clock jitter and jumps in both directions.", "anchors": ["kasa/iot/iotdevice.py: on_since", "kasa/smart/smartdevice.py: on_since"]}
{"id": "C38", "title": "Saving a light preset changes the preset that was named", "statement": "save_preset(name, state) writes the state to the slot from which the preset called name was read; an unknown name is refused.", "quantifier": "every list of stored presets, including entries that are effects", "why_tests_cant": "Depends on the positions of the entries the library skips.", "anchors": ["kasa/iot/modules/lightpreset.py", "kasa/smart/modules/lightpreset.py"]}
{"id": "C39", "title": "Alarm settings are sent in the form the device reports them", "statement": "Setting the alarm volume by number or by name results in the same stored volume, an alarm setting outside its range is refused, and the other alarm settings are kept.", "quantifier": "every volume, duration and sound", "why_tests_cant": "All values.", "anchors": ["kasa/smart/modules/alarm.py", "kasa/smartcam/modules/alarm.py"]}
{"id": "C40", "title": "Two devices do not share module state", "statement": "Updating one vacuum does not change what another vacuum object reports about its consumables.", "quantifier": "every pair of devices and every interleaving of their updates", "why_tests_cant": "State hidden in a class attribute shows only with several devices.", "anchors": ["kasa/smart/modules/consumables.py: Consumables._consumables, _post_update_hook"]}
{"id": "C41", "title": "Child lookup is exact", "statement": "get_child_device returns the child with that id if there is one, else the first child whose alias matches case-insensitively, else None; get_plug_by_index returns the child at that position and raises KasaException for every other index.", "quantifier": "every set of children and every argument", "why_tests_cant": "All indices and names.", "anchors": ["kasa/device.py: get_child_device, get_plug_by_name, get_plug_by_index"]}
{"id": "C42", "title": "Requests are spaced out after a connection problem", "statement": "Once an HTTP client has seen an OS-level connection error, any two later requests are sent at least the wait interval apart.", "quantifier": "every sequence of requests, outcomes and times", "why_tests_cant": "Histories over real-valued time.", "anchors": ["kasa/httpclient.py: HttpClient.post"]}
{"id": "C43", "title": "Time zone index round trip", "statement": "Every firmware time zone index maps to a zone, and looking the zone up again gives an index with the same zone; indices above the table map to UTC.", "quantifier": "all indices", "why_tests_cant": "Table consistency over all entries.", "anchors": ["kasa/iot/iottimezone.py: get_timezone, get_timezone_index, TIMEZONE_INDEX"]}
{"id": "C44", "title": "SMART device kind follows from components", "statement": "For every component set and device type string the device kind is decided by the documented precedence and is never undefined.", "quantifier": "every component set and type string", "why_tests_cant": "All subsets of components.", "anchors": ["kasa/smart/smartdevice.py: _get_device_type_from_components"]}
{"id": "C45", "title": "Reading a module returns its own response or raises", "statement": "Module data is exactly the part of the last response that belongs to the module's queries: the bare value for a single query, the dictionary for several; a failed mandatory query raises, a failed optional one is left out; reading before any update raises KasaException.", "quantifier": "every query set, response set and optional keys", "why_tests_cant": "All combinations of present, missing and failed keys.", "anchors": ["kasa/smart/smartmodule.py: data", "kasa/smartcam/smartcammodule.py: data", "kasa/iot/iotmodule.py: data"]}
{"id": "C46", "title": "Gradual on/off and other SMART setters respect their ranges", "statement": "Setting a light transition, fan speed, target temperature, temperature offset or power protection threshold either raises and sends nothing, or sends a request whose value lies in the range the device reports; 0 switches a transition, fan or protection off and keeps the stored duration or threshold.", "quantifier": "every value and device state", "why_tests_cant": "All values against device-reported limits.", "anchors": ["kasa/smart/modules/lighttransition.py", "kasa/smart/modules/fan.py", "kasa/smart/modules/temperaturecontrol.py", "kasa/smart/modules/powerprotection.py", "kasa/iot/modules/dimmer.py"]}
{"id": "C47", "title": "Camera requests and answers are matched", "statement": "A single-method camera query is rewritten to a device request that carries the same module, section and parameters, and the answer returned to the caller is filed under the method that was asked for; a failed camera query raises.", "quantifier": "every method name, parameter and response", "why_tests_cant": "Method names are rewritten textually.", "anchors": ["kasa/protocols/smartcamprotocol.py: SmartCamProtocol"]}
{"id": "C48", "title": "Features are uniquely identified", "statement": "In every history of feature registrations a device never holds two features with the same id, an attempt to register a duplicate raises KasaException and changes nothing.", "quantifier": "every sequence of registrations", "why_tests_cant": "All sequences.", "anchors": ["kasa/device.py: _add_feature", "kasa/module.py: _add_feature"]}
{"id": "C49", "title": "The camera transport shows password digests only to the right peer", "statement": "In every history of an SslAes transport, the salted digest of the password is posted only after the device has proved, for the nonce just sent to it, that it knows the password and has offered the secure login; the MD5 hash of a password is posted only when the device's last answer asked for the less secure login for that user name.", "quantifier": "every history of sends, answers (well-formed or not), failures and resets", "why_tests_cant": "Depends on every combination of answers in a two-probe handshake and on state left by earlier handshakes.", "anchors": ["kasa/transports/sslaestransport.py: perform_handshake1, perform_handshake2, try_perform_less_secure_login, _is_less_secure_login"]}
{"id": "C50", "title": "The device object matches the protocol it talks", "statement": "Whenever the library builds a device from a connection type (by connecting or by discovery), the device class and the protocol speak the same language: legacy devices over the legacy protocol, newer devices over the newer one, cameras over the camera protocol; and there is a protocol.", "quantifier": "every device family, encryption type and https flag, and every discovery answer", "why_tests_cant": "The two decisions are made in different tables; every combination counts.", "anchors": ["kasa/device_factory.py: get_protocol, get_device_class_from_family", "kasa/discover.py: _get_device_instance_legacy, _get_device_instance"]}
{"id": "C51", "title": "try_connect_all tries every combination and leaves nothing open", "statement": "try_connect_all tries every supported combination of family, encryption, https and login version until one works, reports each attempt to the callback, never raises because an attempt failed, and every protocol created for a failed attempt is closed when it returns. The options that `kasa discover config` prints for the device it found lead a later run of the command line with the same host to connect with exactly the parameters that worked, hence with the same protocol, transport and class.", "quantifier": "every behaviour of the network in every attempt", "why_tests_cant": "Every subset of failing attempts.", "anchors": ["kasa/discover.py: Discover.try_connect_all", "kasa/cli/discover.py: config"]}
{"id": "C52", "title": "Discovery that fails leaves no device open", "statement": "If discover() raises, every device it had found has been closed and the original error is passed on; if it returns, it returns the devices found and closes none of them.", "quantifier": "every set of devices found and every way waiting can end", "why_tests_cant": "Every failure at every point, with any number of devices.", "anchors": ["kasa/discover.py: Discover.discover"]}
{"id": "C53", "title": "A failed legacy update keeps the last known data", "statement": "When a request of IotDevice.update fails, update raises that error and everything the device knew before, its stored answers and its system information, is unchanged; on a first update nothing but the answer to the first request is known.", "quantifier": "every device state, module list and every schedule of answers and failures", "why_tests_cant": "Every point at which an update can fail, with every module list.", "anchors": ["kasa/iot/iotdevice.py: update, _modular_update"]}
{"id": "C54", "title": "The energy readings of a power strip add up those of its sockets", "statement": "Each reading of a power strip is the sum of the same reading over its sockets, its voltage the mean of theirs; its consumption is the sum over the sockets that report one; its daily and monthly statistics have an entry for exactly the periods of some socket, with the sum over the sockets.", "quantifier": "every number of sockets, every set of readings and statistics", "why_tests_cant": "tests use one fixture whose sockets all report the same keys in the same unit", "anchors": ["kasa/iot/iotstrip.py: merge_sums, StripEmeter"]}
{"id": "C55", "title": "has_feature tells what the module offers", "statement": "has_feature(attribute) is true, and get_feature gives the feature, exactly if the module has registered a feature with the declared name or with that attribute as getter or setter; an attribute without a declared feature raises; having asked before does not change the answer.", "quantifier": "every sequence of registrations and questions", "why_tests_cant": "All orders of registering and asking.", "anchors": ["kasa/module.py: Module.has_feature, get_feature, _get_bound_feature"]}
{"id": "C56", "title": "Model, region, brand and versions are what the device reports", "statement": "For every device, the reported model, long name, region, brand, kind, hardware version, firmware version and build are the corresponding parts of the device's answers and discovery: the firmware build is what follows the first space, the region is what is in parentheses after the discovered model or else the device's specs, and cameras' values appear under the names of the other devices; of a camera behind a hub they are the parts of what the hub said of it last, whatever it said before, and its kind stays the same as long as the hub says the same type.", "quantifier": "every answer and discovery result; for cameras behind a hub every history of what the hub says and of readings", "why_tests_cant": "All strings with or without spaces, parentheses and dots.", "anchors": ["kasa/smart/smartdevice.py: _get_device_info", "kasa/iot/iotdevice.py: _get_device_info", "kasa/smartcam/smartcamdevice.py: _get_device_info, _map_info", "kasa/smartcam/smartcamchild.py: SmartCamChild._get_device_info, _map_child_info_from_parent, _update_internal_state, device_type"]}
{"id": "C57", "title": "Hardware addresses are given with colons", "statement": "Whatever form a device reports its hardware address in - with colons, dashes or plain hexadecimal digits - it is given as the same bytes with colons between them; a device without an address raises.", "quantifier": "every address and spelling", "why_tests_cant": "All byte strings and spellings.", "anchors": ["kasa/iot/iotdevice.py: mac", "kasa/smart/smartdevice.py: mac"]}
{"id": "C58", "title": "Failed HTTP requests raise the library's exceptions", "statement": "Whatever goes wrong in an HTTP exchange short of cancellation, the caller gets the library's own exception: a connection error for a broken connection, a time-out when a time limit passed, the general exception otherwise; an answer is given with its status and with its body decoded if JSON was sent and the body can be decoded, and only an undecodable body of status 200 is an error.", "quantifier": "every answer, fault, body and kind of request", "why_tests_cant": "All bodies and faults; the tests mock some of the faults, and none that aiohttp raises for the one limit that is configured.", "anchors": ["kasa/httpclient.py: HttpClient.post", "kasa/exceptions.py: TimeoutError"]}
{"id": "C59", "title": "Setting the clock", "statement": "After set_time(dt) on a device that does what it is told, and an update, the time read is dt to the second, in dt's zone or one with the same offsets; a time without a zone is taken to be in the device's zone, which stays.", "quantifier": "every time, zone, state of the device and zone of the computer", "why_tests_cant": "All times and zones, and the zone of the computer.", "anchors": ["kasa/iot/modules/time.py: Time", "kasa/smart/modules/time.py: Time", "kasa/smartcam/modules/time.py: Time", "kasa/iot/iottimezone.py: get_timezone_index"]}
{"id": "C60", "title": "Children are updated with their device", "statement": "When update() ends normally, every child of a device that is no hub has been updated since the call began, and so has every child of a hub if update_children was asked for; if it was not, and no child came or went, a hub's children keep everything but their info, which is the one last reported.", "quantifier": "every device, set of children and modules, history, answer of the device and reading of the clock", "why_tests_cant": "All histories of children joining and leaving and of failing modules; tests check a few fixtures.", "anchors": ["kasa/smart/smartdevice.py: SmartDevice.update", "kasa/smart/smartdevice.py: SmartDevice._update_children_info", "kasa/smart/smartchilddevice.py: SmartChildDevice._update"]}
{"id": "C61", "title": "Robot vacuums get requests only within a valid login", "statement": "Over the vacuum's HTTPS transport a caller's request is posted only if the caller asked for it, under the token of the last login that was not reset or refused since, made in this call or checked in this call to be younger than a day less 20 minutes; the default credentials are tried only after the device said that the user's are wrong; what a call returns is the device's successful answer to that very request; and after any history a call succeeds if the device accepts login and request.", "quantifier": "every sequence of sends and resets, every answer and failure of the network, every clock", "why_tests_cant": "All histories of expiring, refused and reset sessions and interleaved failures.", "anchors": ["kasa/transports/ssltransport.py: SslTransport.send", "kasa/transports/ssltransport.py: SslTransport.perform_login", "kasa/transports/ssltransport.py: SslTransport.try_login"]}
{"id": "C62", "title": "Camera requests over the Linkie transport arrive, and only real answers come back", "statement": "For every request below 4 GiB the HTTP body posted is a form whose one field decodes to the request's cipher; a call posts at most once; it returns a value exactly if the device answers with status 200 and the base64 of the cipher of that value's JSON text; every failure but a cancellation is raised as one the protocol retries; an error the device reports as plain text is never taken for an answer.", "quantifier": "every request, answer, failure and history", "why_tests_cant": "All texts and all answers, also malformed ones; tests use a few fixtures.", "anchors": ["kasa/transports/linkietransport.py: LinkieTransportV2.send", "kasa/transports/linkietransport.py: LinkieTransportV2._execute_send"]}
{"id": "C63", "title": "Names, networks and passwords survive the trip", "statement": "set_alias sends the name so that the device, decoding it, gets exactly that name, and alias gives the name the device reports; wifi_scan gives exactly the networks of the device's list, in order; wifi_join and update_credentials send network, passwords and user name so that the device decodes exactly these, once on SMART devices, on legacy devices a second time to the other interface only if the first failed; without credentials wifi_join raises and sends nothing.", "quantifier": "every name, network, password, answer and failure", "why_tests_cant": "All Unicode texts and all failures of the exchange.", "anchors": ["kasa/smart/smartdevice.py: SmartDevice.set_alias", "kasa/smart/smartdevice.py: SmartDevice.wifi_join", "kasa/smart/smartdevice.py: SmartDevice.wifi_scan", "kasa/iot/iotdevice.py: IotDevice.wifi_join", "kasa/smartcam/smartcamdevice.py: SmartCamDevice.set_alias"]}
{"id": "C64", "title": "Light effects go by their listed names", "statement": "For bulbs, SMART strips and legacy strips: set_effect with a name from effect_list makes the device run an effect that it lists under exactly that name, with the requested brightness and transition and otherwise unchanged; a name that is not listed is refused with ValueError before anything is sent; 'Off' ends the effect; effect reports the name of the effect the device says it runs, and Off otherwise; once the device has done what it was told, the next update reports the selected effect.", "quantifier": "every list of effects a bulb may report (ids, edited names in base64 or plain, colours), every earlier effect of a strip, every name, brightness and transition", "why_tests_cant": "names come from the user of the app in any script and length, encoded or not; tests use the two built-in names and one fixture", "anchors": ["kasa/smart/modules/lighteffect.py:LightEffect._post_update_hook", "kasa/smart/modules/lighteffect.py:LightEffect.set_effect", "kasa/smart/modules/lightstripeffect.py:LightStripEffect.set_effect", "kasa/iot/modules/lighteffect.py:LightEffect.set_effect", "kasa/smart/effects.py", "kasa/iot/effects.py"]}
{"id": "C65", "title": "A firmware update is started once, on request, and watched until it ends", "statement": "Firmware.update refuses with KasaException, sending nothing, unless the last check_latest_firmware found an update and the device is cloud-connected. Otherwise it sends exactly one fw_download; if that fails its error is raised and nothing is polled; then it polls until the device first reports an idle or failed state, which is returned, surviving any failed poll in between; it never returns while the device reports a busy state; progress_cb is given every reported state in order, once; the whole watch is bounded: at most five minutes of sleep and 600 polls. check_latest_firmware never raises an Exception and forgets an earlier result when it fails.", "quantifier": "every device (any sequence of answers, failures and delays), every state of the module, with and without progress_cb, connected to the cloud or not", "why_tests_cant": "tests patch the state to a fixed list of answers and the sleeps away; the claim is about every sequence of states, lost answers and delays", "anchors": ["kasa/smart/modules/firmware.py:Firmware.update", "kasa/smart/modules/firmware.py:Firmware.check_latest_firmware", "kasa/smart/modules/firmware.py:Firmware.update_available"]}
{"id": "C66", "title": "A light shows what it was set to", "statement": "For legacy bulbs, dimmers and newer lights that do what they are told: after any history of set_brightness, set_hsv, set_color_temp, set_state, turn_on and turn_off, some of them refused, the next update makes light.state, is_on, brightness, hsv and color_temp those of a light on which exactly the accepted operations were performed: brightness 0 means off with the other settings kept (and shown again when it is switched on), settings not mentioned stay as they were, an off light reports only that it is off.", "quantifier": "every initial state of the light, every finite sequence of operations with any integers and optional arguments, every combination of dimmable / colour / white temperatures; with no effect running; for dimmers with an update before each operation", "why_tests_cant": "the claim is about sequences of operations and about how settings not mentioned survive; tests set one value and read it back", "anchors": ["kasa/iot/modules/light.py:Light.set_state", "kasa/iot/modules/light.py:Light._post_update_hook", "kasa/iot/iotbulb.py:IotBulb.light_state", "kasa/iot/iotbulb.py:IotBulb._set_light_state", "kasa/iot/iotdimmer.py:IotDimmer", "kasa/smart/modules/light.py:Light.set_state", "kasa/smart/modules/light.py:Light._post_update_hook"]}
{"id": "C67", "title": "A robot vacuum does what it is told and shows what it was set to", "statement": "A robot's error and status are those whose numbers it reports, unknown numbers are shown as unknown and never raise. start makes a robot clean, and a paused one goes on where it was; pause makes a robot that cleans or drives home stand still; return_home sends it home; pause and start never lose cleaning progress. After any history of setting the fan speed, the water level, the number of passes, carpet boost and the emptying of the bin, some of them refused because the name is not listed, the next update shows the settings made last; every other field the robot stores is unchanged; turning the automatic emptying off and on again keeps the way of emptying. Setting the volume to anything but a number from 0 to 100 is refused; after any history of setting the volume and locating the robot, the volume set last is shown, and the robot has made itself heard once for each time.", "quantifier": "every robot state, progress and list of errors; every initial content of the settings; every finite sequence of settings with any names, each after an update", "why_tests_cant": "the claim is about sequences of operations and about what else they change; tests call each setter once and compare the request", "anchors": ["kasa/smart/modules/clean.py:Clean._post_update_hook", "kasa/smart/modules/clean.py:Clean.status", "kasa/smart/modules/clean.py:Clean.start", "kasa/smart/modules/clean.py:Clean.pause", "kasa/smart/modules/clean.py:Clean.set_fan_speed_preset", "kasa/smart/modules/mop.py:Mop.set_waterlevel", "kasa/smart/modules/dustbin.py:Dustbin.set_mode", "kasa/smart/modules/cleanrecords.py:Records.__pre_deserialize__", "kasa/smart/modules/speaker.py:Speaker.set_volume"]}
{"id": "C68", "title": "A camera's switches, power and motor do what they are told", "statement": "After any history of flipping the switches of a camera (lens mask, motion, person, pet, tamper and baby cry detection, LED) and of turning the camera on and off, the next update shows each switch in the position it was last put in, and the camera is on exactly when its lens is not masked; a camera without a lens mask, or whose camera module is not available, is always on and turning it off sends nothing. Flipping one switch changes no other stored field of the camera. A switch the camera did not answer for raises an error rather than showing a position. After any sequence of pans, tilts, moves and changes of the step sizes the lens points to the sum of the moves.", "quantifier": "every initial content of the camera, every set of switches it has, every finite sequence of operations; every start position and every finite sequence of turns with any integers", "why_tests_cant": "the claims are about sequences of operations and about what else they change; tests flip a switch once and read it back", "anchors": ["kasa/smartcam/modules/lensmask.py:LensMask.set_enabled", "kasa/smartcam/modules/motiondetection.py:MotionDetection.set_enabled", "kasa/smartcam/modules/led.py:Led.set_led", "kasa/smartcam/modules/camera.py:Camera.set_state", "kasa/smartcam/smartcamdevice.py:SmartCamDevice.is_on", "kasa/smartcam/modules/pantilt.py:PanTilt.move", "kasa/smartcam/modules/battery.py:Battery.battery_charging"]}
{"id": "C69", "title": "A thermostat shows what it was set to and what it does", "statement": "After any history of switching a thermostat on and off, setting the target temperature, the offset and frost protection, some of them refused because they are out of range, the next update shows the state, the target temperature and the offset that were set last; setting a target temperature switches the thermostat on; what is refused changes nothing, and no operation changes any other field of the device. The mode is off while frost protection is on and otherwise what the reported states say, and whether the battery is low makes no difference to it. All this holds as well when the thermostat is operated by the thermostat module, which also shows the unit set last and the temperature the device reports, and has the features of its parts. Frost protection shows the minimum temperature of the device.", "quantifier": "every device information, range and list of reported states; every finite sequence of operations with any numbers other than NaN", "why_tests_cant": "the claims are about sequences of operations and every list of states; tests set one value and use a few lists of states", "anchors": ["kasa/smart/modules/temperaturecontrol.py:TemperatureControl.mode", "kasa/smart/modules/temperaturecontrol.py:TemperatureControl.state", "kasa/smart/modules/temperaturecontrol.py:TemperatureControl.set_state", "kasa/smart/modules/temperaturecontrol.py:TemperatureControl.set_target_temperature", "kasa/smart/modules/temperaturecontrol.py:TemperatureControl.set_temperature_offset", "kasa/smart/modules/frostprotection.py:FrostProtection.set_enabled", "kasa/smart/modules/thermostat.py:Thermostat", "kasa/smart/modules/frostprotection.py:FrostProtection.minimum_temperature"]}
{"id": "C70", "title": "What is written as JSON is read back as it was", "statement": "Whichever of the two JSON libraries is installed, a request (or a saved configuration) written as a JSON text and read again is the same value, whatever characters, nesting and integers it has, so no text in a request can add, change or remove a field; different values have different texts. A request sent over the legacy connection, encrypted and received in any pieces, is read by the device as it was made. A text that was cut off is never taken for a whole one, and a text followed by anything but white space is refused. Texts are one line without control characters.", "quantifier": "every JSON value without floats, both libraries, every cut and every split into pieces", "why_tests_cant": "there are infinitely many texts; tests try a few names and never every cut", "anchors": ["kasa/json.py:dumps", "kasa/json.py:loads", "kasa/transports/xortransport.py:XorEncryption", "kasa/deviceconfig.py:DeviceConfig"]}
{"id": "C71", "title": "The address of a camera stream holds exactly the camera, stream and credentials", "statement": "The address of a stream, read as a URL, has the host of the camera, port 554, the stream of the resolution, and a user and a password that stand for the credentials, whatever characters they have; different cameras, credentials or resolutions have different addresses. Credentials given come before those of the configuration; there is no address without user or password or for a camera of a hub. A credentials hash saved from a connection and used later in place of the credentials gives the same address; a hash that cannot be used gives no address.", "quantifier": "all credentials, hosts without slash and at sign, resolutions and configurations", "why_tests_cant": "the claim is about every text of a password; tests use one plain password", "anchors": ["kasa/smartcam/modules/camera.py:Camera.stream_rtsp_url", "kasa/smartcam/modules/camera.py:Camera._get_credentials", "kasa/transports/sslaestransport.py:SslAesTransport._create_b64_credentials", "kasa/transports/sslaestransport.py:SslAesTransport.credentials_hash"]}
{"id": "C72", "title": "Pairing adds what was found, reports what was added, and unpairing removes one device", "statement": "Pairing starts a scan, waits as long as it was told, asks what was found, has the hub add exactly what was found (nothing is added when nothing was found) and updates. It returns the found devices that are children of the hub afterwards, as found and in that order; when the library supports all devices and none was paired before, those are exactly the devices the hub took on. Unpairing removes the named device and no other. However often devices are paired and unpaired, the hub is paired with what that leaves, and its children are those of them the library supports. The same holds of hubs and of camera hubs.", "quantifier": "every hub, what it hears after any wait, which devices it accepts, every sequence of pairings and unpairings, failures in between", "why_tests_cant": "tests replay one scan of one recorded hub; what is found, accepted and supported varies freely", "anchors": ["kasa/smart/modules/childsetup.py:ChildSetup.pair", "kasa/smart/modules/childsetup.py:ChildSetup.unpair", "kasa/smart/modules/childsetup.py:ChildSetup._add_devices", "kasa/smartcam/modules/childsetup.py:ChildSetup.pair", "kasa/smartcam/modules/childsetup.py:ChildSetup.unpair"]}
{"id": "C73", "title": "A motion sensor fires beyond its threshold and shows what it was set to", "statement": "A motion sensor is reported as triggered exactly when it is enabled and its reading is off the middle of its range by more percent than the threshold leaves; its percentage lies between -100 and 100, and is 0 in the middle. A detection range may be given by name, in any case and between white space, and by nothing else. After any sequence of switching it on and off, choosing a range, setting a threshold and setting the timeout, the module shows what these lead to. Asking for the latest reading gives the device's answer, and the module shows it from then on. The ambient light sensor shows what it was set to and its reading.", "quantifier": "every configuration, reading, text and sequence of settings", "why_tests_cant": "readings and limits range over all integers and the orders of settings are unbounded; tests use one recorded configuration and a few readings", "anchors": ["kasa/iot/modules/motion.py:Motion", "kasa/iot/modules/motion.py:PIRConfig", "kasa/iot/modules/motion.py:PIRStatus", "kasa/iot/modules/ambientlight.py:AmbientLight"]}
{"id": "C74", "title": "Changing one setting of a newer device leaves its other settings alone", "statement": "Auto off and its delay, the LED, automatic updates, power protection and its threshold, child protection, child lock, the temperature unit, the fan level and its sleep mode of a newer device can be set independently: setting one makes the device store that value and changes no other setting. Thresholds and fan levels out of range are refused and change nothing. After any sequence of settings and updates the modules show what these lead to.", "quantifier": "every device state, every state the library has read, every value and every sequence of settings, updates and changes by other clients", "why_tests_cant": "the setters send other settings along from what was read last, so the outcome depends on the whole history; tests make one setting on a fresh device and look at the request", "anchors": ["kasa/smart/modules/autooff.py:AutoOff.set_enabled", "kasa/smart/modules/autooff.py:AutoOff.set_delay", "kasa/smart/modules/led.py:Led.set_led", "kasa/smart/modules/firmware.py:Firmware.set_auto_update_enabled", "kasa/smart/modules/powerprotection.py:PowerProtection.set_enabled", "kasa/smart/modules/fan.py:Fan.set_fan_speed_level", "kasa/smart/modules/childlock.py:ChildLock.set_enabled"]}
{"id": "C75", "title": "Over an unreliable network requests are carried out at most once, and answered ones exactly once", "statement": "A device that speaks KLAP runs some program on JSON requests. The network may lose requests or answers or answer with an error instead, the device may restart at any time, sessions expire, and the caller may reset the transport. Still, of the requests sent over one transport object each answered one was carried out exactly once and returned the program's own answer; each failed one was carried out at most once; and they were carried out in the order in which they were sent. The same holds of all messages that whole queries send, with their batches, pages, missing answers and retries. When a query returns, its result is what the device answers to each of its methods. When a query that sets something returns, the device is in the state asked for; when it raises, the device is in that state or as before. When nothing goes wrong every request is answered.", "quantifier": "every program, every JSON request and answer, every history of requests, resets and queries, every schedule of lost requests, lost answers, error answers, restarts, clock readings, seeds and cookies", "why_tests_cant": "it is about all interleavings of failures with handshakes, sequence numbers and retries, end to end from the JSON value handed in to the JSON value returned; tests use a fixed list of mocked answers", "anchors": ["kasa/transports/klaptransport.py:KlapTransport.send", "kasa/transports/klaptransport.py:KlapTransport.perform_handshake", "kasa/transports/klaptransport.py:KlapEncryptionSession.encrypt", "kasa/protocols/smartprotocol.py:SmartProtocol.query", "kasa/protocols/smartprotocol.py:SmartProtocol._execute_multiple_query", "kasa/protocols/smartprotocol.py:SmartProtocol.get_smart_request"]}
{"id": "C76", "title": "Queries to a legacy device are carried out at most once per attempt, in order, and answered by the device's own answer", "statement": "A legacy device runs some program on JSON requests that reach it over the XOR protocol. Connections may fail to open, writes may fail, answers may be cut off or never come, requests may get lost, and the protocol may be closed in between. Still, of all requests sent each answered one was carried out exactly once and got the program's own answer to it, each failed one was carried out at most once, in the order in which they were sent. When a query with n retries returns, its request has been carried out at least once and at most n+1 times and the result is the answer to the last time; when it raises, at most n+1 times. When a query that sets something returns, the device is in the state asked for; when it raises, it is in that state or as before. When nothing fails the query returns after one request, carried out once.", "quantifier": "every program, every JSON request and answer that fits a frame, every history of queries and closes, every number of retries, every schedule of failures, segment sizes and cut-off points", "why_tests_cant": "an answer left over from an earlier request or half an answer can only be mixed up under particular failure schedules; tests mock one reader per query", "anchors": ["kasa/protocols/iotprotocol.py:IotProtocol.query", "kasa/protocols/iotprotocol.py:IotProtocol._query", "kasa/transports/xortransport.py:XorTransport.send", "kasa/transports/xortransport.py:XorTransport._execute_send", "kasa/transports/xortransport.py:XorEncryption.encrypt"]}
{"id": "C77", "title": "Every feature a device offers is there, under its own id and its own name", "statement": "After a successful first update the features of a device are exactly those that the device and its modules offer, each with an id of its own; the first update succeeds whenever the data is there. The state information shows the value of every feature under its name. Every feature is accepted when it is constructed and can be used as its kind says: all but actions have a value, switches, numbers, choices and actions can be set, sensors cannot, choices say what can be chosen. If the first update fails while the features are set up, a later one sets them up.", "quantifier": "every set of modules of newer devices, legacy devices, plugs of legacy strips and cameras, every answer of the device the set of features depends on, every sequence of updates", "why_tests_cant": "which modules come together is up to the device; tests only see the combinations of the devices in the fixtures", "anchors": ["kasa/smart/smartdevice.py:SmartDevice._initialize_features", "kasa/smartcam/smartcamdevice.py:SmartCamDevice._initialize_features", "kasa/iot/iotdevice.py:IotDevice._initialize_features", "kasa/iot/iotstrip.py:IotStripPlug._initialize_features", "kasa/module.py:Module._add_feature", "kasa/device.py:Device._add_feature", "kasa/device.py:Device.state_information", "kasa/smart/modules/alarm.py:Alarm._initialize_features"]}
{"id": "C78", "title": "Requests over the AES transport are carried out at most once, and answered ones exactly once", "statement": "A device that speaks the AES protocol runs some program on JSON requests. The network may lose requests or answers or answer with an error instead, the device may restart and forget key and token at any time, deny logins, refuse requests, sessions expire, and the caller may reset the transport. Still, of the requests sent over one transport object each answered one was carried out exactly once and returned the program's own answer; each failed one was carried out at most once; in the order in which they were sent. The same holds of all messages that whole queries send. When a query returns, its result is what the device answers to each of its methods. When a query that sets something returns, the device is in the state asked for; when it raises, the device is in that state or as before. When nothing goes wrong, and the device knows the user's credentials or those it was delivered with, every request is answered, and a query that sets something returns.", "quantifier": "every program, every JSON request and answer, every history of requests, resets and queries, every schedule of lost requests, lost answers, error answers, restarts, denied logins, keys, tokens, clock readings and cookies", "why_tests_cant": "it is about all interleavings of failures with handshakes, logins, the second login with default credentials and retries, end to end from the JSON value handed in to the JSON value returned; tests use a fixed list of mocked answers", "anchors": ["kasa/transports/aestransport.py:AesTransport.send", "kasa/transports/aestransport.py:AesTransport.perform_handshake", "kasa/transports/aestransport.py:AesTransport.perform_login", "kasa/transports/aestransport.py:AesTransport.try_login", "kasa/transports/aestransport.py:AesTransport.send_secure_passthrough", "kasa/transports/aestransport.py:AesEncyptionSession", "kasa/protocols/smartprotocol.py:SmartProtocol.query"]}
{"id": "C79", "title": "The children of a camera hub follow the hub's list", "statement": "After an update of a camera hub that ends normally, its children are exactly those that the hub's last list reports with components and that were known before or are cameras or sensors and switches of a kind the library knows. Those that were known are the same objects; the others are new objects, cameras or SMART devices by their category. Each child shows what the hub last reported of it, cameras under the names the library uses. The hub's own info is what it said of itself, under the names the library uses. Children that do not answer do not make the update of the hub fail.", "quantifier": "every hub, every set of modules, every history of answers, lists, component lists and children, every schedule of failing queries", "why_tests_cant": "it depends on how two lists, the children known and the answers of new children combine over any sequence of updates; tests use one recorded hub", "anchors": ["kasa/smartcam/smartcamdevice.py:SmartCamDevice._update_children_info", "kasa/smartcam/smartcamdevice.py:SmartCamDevice._try_create_child", "kasa/smartcam/smartcamdevice.py:SmartCamDevice._initialize_smart_child", "kasa/smartcam/smartcamdevice.py:SmartCamDevice._map_info", "kasa/smartcam/smartcamchild.py:SmartCamChild._map_child_info_from_parent", "kasa/smart/smartdevice.py:SmartDevice._create_delete_children", "kasa/smart/smartdevice.py:SmartDevice.update"]}
{"id": "C80", "title": "The command line tool acts on the device it was told to", "statement": "A run of kasa with contradictory options, or without saying which device is meant, does nothing and exits with a nonzero status. With --host everything is done with that host; with --alias everything is done with the device found by that name. The command is run at most once, on a device that has been updated (except for raw commands), the credentials given are used for every connection, and closing the device is the last thing a run does. The exit status is zero only when the command was run and did not fail.", "quantifier": "every combination of options and subcommands, every answer of network, devices and commands", "why_tests_cant": "the paths from options to device multiply: eleven options, three ways of finding a device and failures at every point; tests mock one path each", "anchors": ["kasa/cli/main.py:cli", "kasa/cli/common.py:CatchAllExceptions", "kasa/cli/common.py:error", "kasa/cli/discover.py:_discover", "kasa/cli/discover.py:discover", "kasa/cli/discover.py:detail"]}
{"id": "C81", "title": "Searching for a device by its alias", "statement": "The search started by --alias gives a device only if the device itself showed that alias (ignoring case), namely the first that did so. It gives up only after all its discovery rounds without such a device. No device is asked twice. The search ends.", "quantifier": "every interleaving of answers, updates, failures and ends of rounds, every number of devices", "why_tests_cant": "the outcome depends on the order in which concurrent updates end relative to the discovery rounds", "anchors": ["kasa/cli/discover.py:find_dev_from_alias", "kasa/cli/main.py:cli"]}
{"id": "C82", "title": "A command is run on the child the user named, and on nothing else", "statement": "With --child or --child-index a command is run exactly when the option names a child of the device: by identifier, else the first with the alias ignoring case, by position, or by the first number in range entered at the prompt. It is run once, on that child, never on the device itself. Otherwise nothing is run and the exit status is nonzero. While the command runs, updating the child updates the whole device; afterwards the child's own method is back, whether the command failed or not.", "quantifier": "every device, list of children, combination of options, input at the prompt, every command body", "why_tests_cant": "negative indexes, equal names, identifiers that are names of others and inputs at the prompt combine freely", "anchors": ["kasa/cli/common.py:pass_dev_or_child", "kasa/cli/common.py:_get_child_device", "kasa/device.py:Device.get_child_device"]}
{"id": "C83", "title": "A command changes what it was asked to change, and nothing else", "statement": "A command of the tool makes at most the one change of the device it asks for, with the values given; commands that show something change nothing. A command that ends normally has made that change. A command for something the device does not have fails without calling anything. Resetting the device and replacing its credentials need the user's consent.", "quantifier": "every command with any arguments, every device, every answer to calls and questions", "why_tests_cant": "the arguments, the features of the device and the failing call are independent; tests check one device per command", "anchors": ["kasa/cli/device.py", "kasa/cli/light.py", "kasa/cli/time.py", "kasa/cli/usage.py", "kasa/cli/schedule.py", "kasa/cli/wifi.py", "kasa/cli/hub.py", "kasa/cli/vacuum.py", "kasa/cli/feature.py"]}
{"id": "C84", "title": "With --json the standard output is one JSON document", "statement": "With --json a run whose command ends normally writes exactly one JSON document and nothing else to the standard output; without --json no document is written.", "quantifier": "every run: every combination of options, every command, every answer", "why_tests_cant": "every command and every message of the tool would have to be tried with --json on devices with every feature", "anchors": ["kasa/cli/common.py:json_formatter_cb", "kasa/cli/common.py:echo", "kasa/cli/vacuum.py", "kasa/cli/device.py:logs", "kasa/cli/schedule.py"]}
{"id": "C85", "title": "Requests over the HTTPS transport are carried out at most once, and the transport recovers by itself", "statement": "A robot vacuum (a device that is logged into over HTTPS and then addressed under a token) runs some program on JSON requests. The network may lose requests or answers or answer with an error instead, the device may forget its session at any time, deny logins and refuse requests, sessions expire, and the caller may reset the transport. Still, each answered request was carried out exactly once and returned the program's own answer; each failed one was carried out at most once; in the order in which they were sent. The same holds of all messages that whole queries send; a query's result is what the device answers to each of its methods; and a query that sets something has set it when it returns, and has done so or nothing when it raises. Once nothing goes wrong any more, whatever happened before, at most the next request fails, and only because the device refuses a session it has forgotten, in which case it was not carried out; all later ones are answered.", "quantifier": "every program, every JSON request and answer, every history of requests, resets and queries, every schedule of lost requests, lost answers, error answers, restarts, denied logins, tokens and clock readings", "why_tests_cant": "it is about all interleavings of failures with logins, expiry and the second login with default credentials, and about every history a transport object may have before things go well again; tests use a fixed list of mocked answers", "anchors": ["kasa/transports/ssltransport.py:SslTransport.send", "kasa/transports/ssltransport.py:SslTransport.send_request", "kasa/transports/ssltransport.py:SslTransport.perform_login", "kasa/transports/ssltransport.py:SslTransport.try_login", "kasa/transports/ssltransport.py:SslTransport.reset", "kasa/protocols/smartprotocol.py:SmartProtocol.query"]}
{"id": "C86", "title": "Requests to a camera are carried out at most once", "statement": "A camera runs some program on JSON requests and does either the secure login (nonces on both sides, digests, encrypted requests with sequence numbers and tags) or the less secure one (hashed password, plain requests under a token). The network may lose requests or answers or answer with an error instead, the camera may forget its sessions at any time, deny user names and refuse requests, and the caller may reset the transport. Still, each answered request was carried out exactly once and returned the program's own answer; each failed one was carried out at most once; in the order in which they were sent. The same holds of all messages that whole camera queries send; a query's result is what the camera answers to each of its methods; and a query that sets something has set it when it returns, and has done so or nothing when it raises.", "quantifier": "every program, every JSON request and answer, every history of requests, resets and queries, every schedule of lost requests, lost answers, error answers, restarts, denials, nonces, tokens and sequence numbers, every cipher and hash function, every stored password", "why_tests_cant": "it is about all interleavings of failures with the probes, the two logins and the fallbacks to stored and default credentials, and about every history a transport object may have; tests use a fixed list of mocked answers", "anchors": ["kasa/transports/sslaestransport.py:SslAesTransport.send", "kasa/transports/sslaestransport.py:SslAesTransport.send_secure_passthrough", "kasa/transports/sslaestransport.py:SslAesTransport.send_unencrypted", "kasa/transports/sslaestransport.py:SslAesTransport.perform_handshake1", "kasa/transports/sslaestransport.py:SslAesTransport.perform_handshake2", "kasa/transports/sslaestransport.py:SslAesTransport.reset", "kasa/protocols/smartcamprotocol.py:SmartCamProtocol._execute_query"]}
{"id": "C87", "title": "When the failures end, a device can be used again", "statement": "A transport object may have gone through any history of lost requests and answers, device restarts, failed logins and resets. Once nothing goes wrong any more, and the device was given the user's password (or, where the library tries them, the default credentials), the object can still be used: a request is answered with the device's own answer, or refused without being carried out and reported as not authenticated or to be tried again; after a reset all requests are answered. With at least one retry, a query that sets something returns and has set it; or, where the device refuses a stale session with an error the library does not retry (camera, HTTPS and AES devices), it raises that error with nothing changed, and the same query made once more returns and has set it. Over KLAP it always returns and has set it, as long as the session has a sequence number left; a session that has used up its sequence numbers fails every query until it expires. When nothing goes wrong from the start, every request on a new transport is answered.", "quantifier": "every history of requests, queries and resets with every schedule of failures before the failures end, every device program, request, cipher, hash function, password, token, nonce and sequence number, both camera logins, KLAP, AES and HTTPS transports", "why_tests_cant": "the state in which a failure leaves the transport (stale session, stale user name, fallback to the less secure login) is reached by interleavings that no list of mocked answers covers; the claim is that none of them is a dead end", "anchors": ["kasa/transports/sslaestransport.py:SslAesTransport.send", "kasa/transports/sslaestransport.py:SslAesTransport.perform_handshake", "kasa/transports/sslaestransport.py:SslAesTransport._handle_response_error_code", "kasa/transports/sslaestransport.py:SslAesTransport.reset", "kasa/transports/ssltransport.py:SslTransport.send", "kasa/protocols/smartprotocol.py:SmartProtocol._query", "kasa/transports/klaptransport.py:KlapTransport.send", "kasa/transports/aestransport.py:AesTransport.send", "kasa/transports/aestransport.py:AesTransport._handle_response_error_code"]}
{"id": "C88", "title": "Discovery waits for answers and callbacks, ends, and cleans up", "statement": "A call of discover that returns gives exactly the devices recognised in what arrived before it ended. If it was not cancelled and the target itself did not answer (as with a broadcast), it has sent all its packets and waited after each. The on_discovered callback of every device found while it was searching has ended without an exception, and no host has two callbacks. A call that is cancelled does not return, unless the target answers while it is searching. On every fair schedule the call ends, and its outcome does not change afterwards. After it returned nothing is sent any more, nor after it raised once its transport has closed, nor after the target answered or the searching call was cancelled. If it raises one of the library's exceptions or is cancelled, every device found has been closed, provided closing succeeds and is not interrupted. Not guaranteed, with counterexamples: a device that answers while callbacks are awaited is returned with its callback still running; a cancellation is lost if the target answers; a device that answers while others are being closed replaces the exception by a RuntimeError and stays open; no packets means a division by zero.", "quantifier": "every schedule of datagrams, task steps, callback outcomes, cancellations and closings, every number of packets, target and set of options; fair endless schedules for the end", "why_tests_cant": "tests fix one interleaving of the search, its callbacks and cancellation on the event loop; the claim is about all of them", "anchors": ["kasa/discover.py:Discover.discover", "kasa/discover.py:_DiscoverProtocol.wait_for_discovery_to_complete", "kasa/discover.py:_DiscoverProtocol.connection_made", "kasa/discover.py:_DiscoverProtocol.do_discover", "kasa/discover.py:_DiscoverProtocol.datagram_received", "kasa/discover.py:_DiscoverProtocol.connection_lost"]}
{"id": "C89", "title": "HTTP sessions are used, shared and closed as promised, and cookies are those of the device", "statement": "A device that was given an HTTP session (http_client) makes all its requests over it, and the library never closes that session; any other device makes a session of its own when it first needs one, never has two open, and closes it when it is closed; after that nothing it opened is open as long as it makes no further request, and a later request opens a new session. The session cookie and timeout that a device keeps from a login are exactly those of the answer to that login; when several devices share a session they may be missing, which happens only if another device began a request between the head and the end of that answer, but they are never those of another device or of an earlier answer. Closing does not wait for a query that is going on, so a retry after closing may leave a session open.", "quantifier": "every number of devices, each with its own, a shared or an unusable session, and every interleaving of requests, answers with any cookies, failures, closings by the library and by the user", "why_tests_cant": "whose cookies are in a shared jar, and which sessions are open, depends on the interleaving of all devices on the event loop", "anchors": ["kasa/httpclient.py:HttpClient.client", "kasa/httpclient.py:HttpClient.post", "kasa/httpclient.py:HttpClient.get_cookie", "kasa/httpclient.py:HttpClient.close", "kasa/deviceconfig.py:DeviceConfig.http_client", "kasa/transports/klaptransport.py:KlapTransport.close", "kasa/transports/aestransport.py:AesTransport.close"]}
{"id": "C90", "title": "What was set is what is read back, whatever the network does", "statement": "A query that only reads never changes the device, whether it returns or raises, and if it returns, every entry is the answer the device gives in the state it is in, with an entry for each method asked for. Once a call that sets something has returned, after however many lost messages, restarts and retries, every later reading that returns shows what was set, until something else is set; after a call that raised, readings show what was to be set or what was before. An update() of a device object after such a call leaves it, for everything the update asks for, with what was set or with the marker of a failed query, never with an earlier value; what it does not ask for stays as it was.", "quantifier": "every device program with reading and setting requests, every history of queries before, every query that reads, any number of failed or answered readings in between, every network behaviour, over KLAP, AES and HTTPS transports and for legacy devices; every device object with any modules", "why_tests_cant": "lost answers, restarts, new handshakes, batches and retries happen at any point between setting and reading", "anchors": ["kasa/protocols/smartprotocol.py:SmartProtocol.query", "kasa/protocols/smartprotocol.py:SmartProtocol._execute_multiple_query", "kasa/protocols/iotprotocol.py:IotProtocol.query", "kasa/smart/smartdevice.py:SmartDevice.update", "kasa/smart/smartdevice.py:SmartDevice._modular_update", "kasa/transports/klaptransport.py:KlapTransport.send", "kasa/transports/aestransport.py:AesTransport.send", "kasa/transports/ssltransport.py:SslTransport.send", "kasa/transports/xortransport.py:XorTransport.send"]}
{"id": "C91", "title": "A light shows what it was set to, whatever the network does", "statement": "Calls of set_brightness, set_hsv, set_color_temp, set_state, turn_on and turn_off and readings of a light are made one after the other, over a network that loses messages and a device that restarts. Then at any time the light is in a state that the calls explain: a call that returned was carried out, in its place in the order; a call that raised was carried out or not, and not if its arguments are refused; nothing else has happened to the light. Every reading that returns shows this state in device.is_on, light.state, light.brightness, light.hsv and light.color_temp, and so does an update() of the device object unless it is left with the marker of a failed query. In particular, once a call has returned, what is read next is what was set.", "quantifier": "every light (with or without dimming, colours, temperatures), every sequence of calls with any integers, every reading in between, every network behaviour, over KLAP, AES and HTTPS for newer lights and the legacy protocol for bulbs", "why_tests_cant": "where messages are lost, when the device restarts, which calls are retried and what was set before are independent of each other and unlimited", "anchors": ["kasa/smart/modules/light.py:Light", "kasa/smart/modules/brightness.py:Brightness.set_brightness", "kasa/smart/modules/color.py:Color.set_hsv", "kasa/smart/modules/colortemperature.py:ColorTemperature.set_color_temp", "kasa/smart/smartdevice.py:SmartDevice.set_state", "kasa/smart/smartdevice.py:SmartDevice._query_helper", "kasa/smart/smartmodule.py:SmartModule.call", "kasa/iot/modules/light.py:Light", "kasa/iot/iotbulb.py:IotBulb._set_light_state", "kasa/iot/iotdevice.py:IotDevice._query_helper", "kasa/protocols/smartprotocol.py:SmartProtocol.query", "kasa/protocols/iotprotocol.py:IotProtocol.query"]}
{"id": "C92", "title": "Children behind a hub: what was set at one is what is read from it, and the others are left alone, whatever the network does", "statement": "Queries to a hub or strip and to its children are made one after the other, over a network that loses messages and a device that restarts. A query to one child, whatever it asks and whatever becomes of it, leaves every other child as it is. Once a query that sets something at a child has returned, and whatever was then done with the other children and read from the device, a query that reads from the child and returns shows the child as it was set; if the setting query raised, it shows the child as it was set or as it was before. After a setting query that returned, an update of the child's object leaves in it only answers given in the state that was set and markers of failed queries.", "quantifier": "every sequence of queries to the device and its children, every child, every setting and reading query, every retry count, every network behaviour, over KLAP, AES and HTTPS", "why_tests_cant": "which messages are lost, when the device restarts, which envelopes are retried and what the other children are asked are independent of each other and unlimited", "anchors": ["kasa/protocols/smartprotocol.py:_ChildProtocolWrapper._query", "kasa/protocols/smartprotocol.py:_ChildProtocolWrapper._get_method_and_params_for_request", "kasa/protocols/smartprotocol.py:SmartProtocol.query", "kasa/smart/smartchilddevice.py:SmartChildDevice._update", "kasa/smart/smartdevice.py:SmartDevice._query_helper"]}
{"id": "C93", "title": "What a legacy device object shows before and after its first update", "statement": "Before a legacy device has been heard from, a reading (sys_info, modules, model, hw_info, location, rssi, mac, device_id, time, timezone, is_on) shows what discovery told last under that name, or raises KasaException; it never shows anything else, raises anything else, or acts as if the device were switched off. Once the device has reported its system information, in answer to a discovery broadcast or to an update, alias, hw_info, location, rssi, is_on, mac and device_id show exactly what it reported last; once an update has returned, modules stay available whatever fails later; has_emeter follows the last feature text that was reported.", "quantifier": "every sequence of discovery results and updates of any outcome, every content of discovery information and system information", "why_tests_cant": "what a reading shows depends on everything that was discovered or updated before, in any order, with any content, and on which updates failed", "anchors": ["kasa/iot/iotdevice.py:requires_update", "kasa/iot/iotdevice.py:IotDevice.update_from_discover_info", "kasa/iot/iotdevice.py:IotDevice._set_sys_info", "kasa/iot/iotdevice.py:IotDevice.hw_info", "kasa/iot/iotdevice.py:IotDevice.location", "kasa/iot/iotdevice.py:IotDevice.rssi", "kasa/iot/iotdevice.py:IotDevice.model", "kasa/iot/iotdevice.py:IotDevice.modules", "kasa/iot/iotdevice.py:IotDevice.has_emeter", "kasa/iot/iotplug.py:IotPlug.is_on", "kasa/iot/iotstrip.py:IotStrip.is_on", "kasa/iot/iotstrip.py:IotStrip.turn_off"]}
{"id": "C94", "title": "A camera shows what it was set to, whatever the network does", "statement": "A camera is set and read through the camera transport, over a network that may lose requests and answers and restart the camera. A query that reads never changes the camera, and what it returns is the state the camera is in. Once a query that sets something has returned, later readings, and later updates of the camera object for every method that could be asked for, show what was set; if it raised, they show the camera as it was set or as it was before. The switches of a camera (lens mask, LED, motion, person, pet, tamper and baby cry detection) and whether it is on are at any time explained by the operations and their outcomes: turning a camera off that has a lens mask puts the mask on, and it is then shown off.", "quantifier": "every sequence of operations and queries, every fate of every message, every restart of the camera, both kinds of camera login, every camera program that stores what it is told", "why_tests_cant": "tests run a few exchanges against a mock; here every interleaving of losses, restarts, new logins and retries counts", "anchors": ["kasa/protocols/smartcamprotocol.py:SmartCamProtocol._execute_query", "kasa/transports/sslaestransport.py:SslAesTransport.send", "kasa/smartcam/smartcamdevice.py:SmartCamDevice._query_setter_helper", "kasa/smartcam/smartcamdevice.py:SmartCamDevice.set_state", "kasa/smartcam/modules/lensmask.py:LensMask.set_enabled", "kasa/smartcam/modules/led.py:Led.set_led", "kasa/smartcam/modules/camera.py:Camera.is_on"]}
{"id": "C95", "title": "Deprecated names stand for what replaced them", "statement": "Reading a deprecated name of a device, of its light or of its energy module gives what the replacement gives, be it a value or an exception, and issues exactly one deprecation warning, which names it; a name that the device has itself is looked up as it is, without a warning. If the replacement is not there, or if the name is neither an attribute nor deprecated, the lookup tells that there is no such attribute. The deprecated names of the package give the classes that took their place.", "quantifier": "every device with any attributes, modules and features, every name, every depth of recursion that is enough for two steps", "why_tests_cant": "tests try each name on a few devices; which attributes, modules and features a device has, and which of them raise, is open-ended", "anchors": ["kasa/device.py:Device.__getattr__", "kasa/device.py:Device._get_replacing_attr", "kasa/device.py:Device._get_deprecated_callable_attribute", "kasa/interfaces/light.py:Light.__getattr__", "kasa/interfaces/energy.py:Energy.__getattr__", "kasa/__init__.py:__getattr__"]}
{"id": "C96", "title": "Listings show every feature once, whatever its getters do", "statement": "The state command and the feature command without a name show every feature of the device and of each of its children exactly once, under the section of its category and in the order of the device, whatever reading a value, its choices, its unit or its limits raises: a value that cannot be read is reported in its line and the listing goes on. The state command stops early only if something about the device itself cannot be read, before any feature is shown. A value is shown with its unit, a number also with its limits, a choice by all choices with the current one between stars; a value that is none of the choices is reported as invalid.", "quantifier": "every list of features of every device and child with any category but none of them unset, every outcome of every getter that is not an interruption of the program, verbose or not", "why_tests_cant": "tests list a few devices whose getters all succeed; which getters fail, and in which combination, is open-ended", "anchors": ["kasa/feature.py:Feature.__repr__", "kasa/feature.py:Feature.value", "kasa/cli/feature.py:_echo_features", "kasa/cli/feature.py:_echo_all_features", "kasa/cli/feature.py:feature", "kasa/cli/device.py:state"]}
{"id": "C97", "title": "Sensors show what the device reported", "statement": "Each sensor of a newer device shows what the device reported in its last update: battery level, contact, motion, temperature, humidity, report interval and water alarm as they are; warnings exactly if a code other than zero was reported; a low battery under either of its two names; overheating if the status is anything but normal; a water leak as one of its three states; the last alert as a moment in the zone of the device; the end of the auto-off timer as the reported number of seconds after the time of the device, and none while the timer does not run; the cloud connection exactly if status zero was reported, and false if the device answered with an error. A feature offered at the first update can be read as long as the device keeps reporting what it reported at first. The time of a device is its own, else its parent's, else the host's.", "quantifier": "every device info, every feature of the sensors, every clock of device, parent and host, every answer about the cloud", "why_tests_cant": "tests read a few recorded devices; which keys are reported, and with which values, is open-ended", "anchors": ["kasa/smart/modules/batterysensor.py", "kasa/smart/modules/contactsensor.py", "kasa/smart/modules/motionsensor.py", "kasa/smart/modules/temperaturesensor.py", "kasa/smart/modules/humiditysensor.py", "kasa/smart/modules/reportmode.py", "kasa/smart/modules/waterleaksensor.py", "kasa/smart/modules/overheatprotection.py", "kasa/smart/modules/autooff.py", "kasa/smart/modules/powerprotection.py", "kasa/smart/modules/cloud.py", "kasa/smart/smartdevice.py:SmartDevice.time", "kasa/smart/smartdevice.py:SmartDevice.is_cloud_connected"]}
{"id": "C98", "title": "What a search prints stands in one piece for each device", "statement": "`discover` prints what it says about a device or an unsupported device in one piece, whatever the order in which their answers arrive: at no moment has more than one piece begun without being whole, the callbacks never wait for each other for ever, and when they are over the output is one whole piece for each, in some order. `discover list` gives exactly one line for each device, which begins with host, model, family, encryption, https and login version below their headings (if they fit) and ends with the alias or with what went wrong, whatever the update raises. `discover` shows each device, those that refuse the credentials, and those that are unsupported, and its three numbers are those of the devices returned and of the pieces that say so. `discover raw` prints a response unchanged, and with --redact prints nothing that depends on what must be hidden in a response from that port. When the search was the command given, all devices found are disconnected afterwards, and otherwise none.", "quantifier": "every number of devices, every outcome of their updates, every schedule of the callbacks, every response", "why_tests_cant": "tests run one device at a time; interleavings of the callbacks and failures of single devices are not exercised", "anchors": ["kasa/cli/discover.py:detail", "kasa/cli/discover.py:list", "kasa/cli/discover.py:raw", "kasa/cli/discover.py:_close_protocols"]}
{"id": "C99", "title": "Encrypted discovery data are read, and never decide which device is found", "statement": "A device may answer a probe with data encrypted for the public key in that probe. Whatever other searches were made in the process before and after, also if the answer comes late, the data are decrypted to what the device encrypted. All probes of a process carry one public key. Data that cannot be decrypted, or are under another scheme, leave the answer as it was, and do not keep the device from being found: class, host, protocol and connection of the device do not depend on the encrypted data.", "quantifier": "every history of probes and answers in a process, every key pair, every session key and vector, every JSON value and every text of it, every block cipher", "why_tests_cant": "tests decrypt one recorded answer with one key pair made for it; late answers and several searches are not exercised", "anchors": ["kasa/discover.py:_AesDiscoveryQuery.generate_query", "kasa/discover.py:Discover._decrypt_discovery_data", "kasa/discover.py:Discover._get_device_instance", "kasa/transports/aestransport.py:KeyPair"]}
{"id": "C100", "title": "Rules of legacy devices are shown, deleted and switched", "statement": "For the schedule, countdown and anti-theft services of a legacy device, `rules` shows exactly the rules the device holds, in its order and with all their fields, and never raises. `delete_rule` makes the next update show all other rules and not that one, `delete_all_rules` none, and `set_enabled` switches the service and leaves the rules. `schedule delete --id` deletes the rule with that id, and sends nothing if there is none.", "quantifier": "every list of rules with any of their optional fields, every content of the last update, every command", "why_tests_cant": "tests read one recorded rule; the optional fields and the values in them vary with devices and firmware", "anchors": ["kasa/iot/modules/rulemodule.py", "kasa/iot/modules/schedule.py", "kasa/iot/modules/countdown.py", "kasa/iot/modules/antitheft.py", "kasa/cli/schedule.py:delete_rule"]}
{"id": "C101", "title": "Energy meters ask for the period asked for, and claim what is reported", "statement": "`get_daily_stats` and `get_monthly_stats` ask the meter once for the given year and month (the current ones if not given) and return the energy of each period the device then reports, in the unit asked for; on a strip every socket is asked, in order, and the answers are added up. `erase_stats` tells the meter, and on a strip every socket, to erase its statistics; `get_status` asks anew and returns what the device then reads. A meter that cannot be reached makes them raise `KasaException`. `supports()` says whether the device reports voltage and current, a total, and statistics by period, and what is supported has a reading.", "quantifier": "every year and month, every answer and failure of the device or any socket, every number of sockets, every history of updates", "why_tests_cant": "tests use recorded answers for one month, with sockets that all answer, and one update", "anchors": ["kasa/iot/modules/usage.py", "kasa/iot/modules/emeter.py", "kasa/iot/iotstrip.py:StripEmeter", "kasa/smart/modules/energy.py", "kasa/interfaces/energy.py:Energy.supports"]}
{"id": "C102", "title": "Turn-on behaviours of bulbs, and buttons and fades of dimmers, are set as asked", "statement": "`get_turn_on_behavior` of a legacy bulb returns what the bulb does when turned on by a command and with the mains, with all fields, and changes nothing. After `set_turn_on_behavior` returned, the bulb does what was asked; to choose a preset, or the last state, it is enough to change the preset of what was read. After `set_button_action` or `set_fade_time` of a legacy dimmer returned, the button does that, or the fade takes that long, and nothing else has changed; `get_behaviors` returns what the dimmer tells. Before an update these calls raise `KasaException` and send nothing.", "quantifier": "every behaviour, every combination of its fields, every action, button, preset index and time, every state of the device", "why_tests_cant": "tests only read behaviours, from recorded answers, and no test sets a button action or a fade time", "anchors": ["kasa/iot/iotbulb.py:TurnOnBehavior", "kasa/iot/iotbulb.py:TurnOnBehaviors", "kasa/iot/iotbulb.py:IotBulb.set_turn_on_behavior", "kasa/iot/iotdimmer.py:IotDimmer.set_button_action", "kasa/iot/iotdimmer.py:IotDimmer.set_fade_time", "kasa/iot/iotdimmer.py:IotDimmer.get_behaviors"]}
{"id": "C103", "title": "The tool's commands are found and listed, raw commands send what they are given, and their answers are printed", "statement": "Every command the tool lists is found, as the command of its name; a group lists exactly what it finds, and its help shows every command once, in the section of the group that has it also. `kasa command` sends exactly the given command with the given parameters, once, to the given module; it returns the device's answer and prints it as JSON, raises `KasaException` without printing anything if a legacy device refuses or cannot be reached, and sends nothing if the parameters are no literal. `raw-command` does the same.", "quantifier": "every table of lazily loaded commands and every package, every command, module and parameters, every answer or failure of the device, every text printed", "why_tests_cant": "tests run a few commands with mocked devices and compare no printed data", "anchors": ["kasa/cli/lazygroup.py:LazyGroup", "kasa/cli/main.py:cli", "kasa/cli/main.py:cmd_command", "kasa/cli/main.py:raw_command", "kasa/cli/common.py:_strip_rich_formatting", "kasa/cli/common.py:echo"]}
{"id": "C104", "title": "A legacy device offers the modules of its kind, and updates ask for what they show", "statement": "After its first update a legacy device offers exactly the modules of its kind, each once, and keeps them: all but cameras have schedules, usage and an absence mode, all but sockets and cameras the time and the cloud, lights their light, presets and meter, and so on. Every update asks for every command that these modules show, of the service of that kind of device and with the current month and year, unless the device refused the service; it asks for nothing else but the system information; and everything asked for a socket of a strip names that socket and no other.", "quantifier": "every kind of legacy device, name and reported features, every moment, every earlier answer of the device, every limit on the size of requests", "why_tests_cant": "tests check single modules of recorded devices and do not look at the requests of updates", "anchors": ["kasa/iot/iotdevice.py:IotDevice._initialize_modules", "kasa/iot/iotdevice.py:IotDevice.add_module", "kasa/iot/iotplug.py:IotWallSwitch._initialize_modules", "kasa/iot/iotdimmer.py:IotDimmer._initialize_modules", "kasa/iot/iotbulb.py:IotBulb._initialize_modules", "kasa/iot/iotstrip.py:IotStripPlug._create_request", "kasa/iot/modules/usage.py:Usage.query", "kasa/iot/modules/rulemodule.py:RuleModule.query"]}
{"id": "C105", "title": "A newer device shows what was told of it last", "statement": "Whatever a device object heard before, it shows what the device, its hub or discovery told last: whether it is on, its id, its place in degrees, the strength of its signal and its hardware, with its name decoded. Before anything was heard of it, it shows nothing, and being found again by discovery does not make it forget what it said itself.", "quantifier": "every sequence of discovery answers, updates and updates by a hub, every report of a device", "why_tests_cant": "tests read single recorded devices once after an update", "anchors": ["kasa/smart/smartdevice.py:SmartDevice.hw_info", "kasa/smart/smartdevice.py:SmartDevice.location", "kasa/smart/smartdevice.py:SmartDevice.rssi", "kasa/smart/smartdevice.py:SmartDevice.device_id", "kasa/smart/smartdevice.py:SmartDevice.is_on", "kasa/smart/smartdevice.py:SmartDevice.update_from_discover_info"]}
{"id": "C106", "title": "Connecting a legacy device to the cloud", "statement": "A legacy device is shown as connected to the cloud exactly if it reports so, with the account and server it reports. Connecting it with a name and password makes it belong to that account, disconnecting makes it belong to none, and setting the server makes it use that server.", "quantifier": "every report of a device, every account, name, password and server", "why_tests_cant": "tests look at one recorded report and at the features only", "anchors": ["kasa/iot/modules/cloud.py:Cloud.is_connected", "kasa/iot/modules/cloud.py:Cloud.info", "kasa/iot/modules/cloud.py:Cloud.connect", "kasa/iot/modules/cloud.py:Cloud.disconnect", "kasa/iot/modules/cloud.py:Cloud.set_server"]}
