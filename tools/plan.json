{
"C01": "XorEncryption as functions on byte lists; induction on the payload, generalised over the key.",
"C02": "Stream reader over a list of chunks with `readexactly`; refinement to taking n bytes of the concatenation.",
"C03": "XorTransport as a state machine against a device answering in order; invariant: an open connection has no unread answer.",
"C04": "Both `_query` loops over an oracle of outcomes; induction on the attempts left, refinement to a declarative spec of traces.",
"C05": "Tasks as coroutines stepping through lock, sends and release under any schedule; invariant over all reachable states.",
"C06": "`_execute_multiple_query` with the device as a function; completeness by induction on batches.",
"C07": "Histories of one protocol object; invariant on the batch size.",
"C08": "The loop of `_handle_response_lists` with the device as an oracle; induction on what remains.",
"C09": "Each `_handle_response_error_code` on all integers; case analysis and table membership.",
"C10": "Both child wrappers over any parent protocol; request and response equations.",
"C11": "KlapEncryptionSession over an abstract cipher and hash; round trip, injectivity of the IV, induction on requests.",
"C12": "KLAP handshakes with any device; case analysis on which hash matched.",
"C13": "KLAP and AES transports as state machines with a log; invariants over histories of calls.",
"C14": "SslAesTransport as a state machine with a log; invariants over histories.",
"C15": "`redact_data` on JSON values and, for sharing, on a heap; structural induction, refinement of the heap version.",
"C16": "`datagram_received` folded over any sequence of datagrams; invariants.",
"C17": "The same with `discover_single` waiting for its target; invariants.",
"C18": "`generate_query` over an abstract CRC; list arithmetic.",
"C19": "`to_dict`, `from_dict` and their parts on configurations; case analysis.",
"C20": "`get_protocol` as a decision table; case analysis over the whole enumerations.",
"C21": "`connect` as a program with an exception or cancellation at each await; case analysis on a log of opened connections.",
"C22": "`_modular_update` packing; induction on the modules.",
"C23": "`_query_helper`; case analysis on the shape of the answer.",
"C24": "`_get_device_type_from_sys_info` on JSON; case analysis.",
"C25": "The strip's state and commands; list lemmas.",
"C26": "The answers of a strip and its sockets on a heap; invariants on what is shared.",
"C27": "EmeterStatus over exact rationals; algebra.",
"C28": "Daily and monthly statistics; induction over the list.",
"C29": "Setters of lights as functions to requests or refusals; case analysis, arithmetic.",
"C30": "`Feature.set_value` on all values; case analysis.",
"C31": "The state a module keeps, as histories of events; invariants. Devices are shown to act by these events.",
"C32": "The same histories; a command is followed by a query.",
"C33": "`_modular_update` with `_handle_modular_update_error`; induction on the requests.",
"C34": "`update` of a SMART device with a failure at any await; witness, and a theorem for interrupted module queries.",
"C35": "`_create_delete_children` in any world; dict lemmas.",
"C36": "`SmartChildDevice._update`; case analysis on which modules are queried.",
"C37": "The cache of `on_since`; induction on histories.",
"C38": "Presets, both generations; list lemmas.",
"C39": "Alarm setters of hubs and cameras; case analysis.",
"C40": "The class-level dict as state shared by instances; witness.",
"C41": "Lookup of children by alias, index and id; list lemmas.",
"C42": "`HttpClient.post` with the clock as environment; invariant over histories.",
"C43": "The table of time zones and its lookups, for any comparison; full-table kernel evaluation and list lemmas.",
"C44": "Decision tables for kinds; agreement with a spec table.",
"C45": "`data` of the three kinds of modules; case analysis.",
"C46": "Setters of the SMART modules; case analysis, arithmetic.",
"C47": "`SmartCamProtocol._execute_query` and naming; string and list lemmas.",
"C48": "The registry of features; invariant.",
"C49": "SslAesTransport's handshakes with a log; invariant on what is posted to whom.",
"C50": "`get_protocol`, device classes and discovery; case analysis over all combinations.",
"C51": "`try_connect_all` with any environment; induction over the candidates.",
"C52": "`discover` and its error paths; case analysis with a log of open devices.",
"C53": "`IotDevice.update` in any environment, exceptions at each query; state after failure.",
"C54": "Energy of a strip; sums by induction.",
"C55": "`has_feature` and its cache; case analysis.",
"C56": "`_get_device_info` of the three families on JSON; string lemmas.",
"C57": "`mac` on all texts; induction on digits.",
"C58": "`HttpClient.post` on every fault; case analysis.",
"C59": "Clocks of the three families; arithmetic on instants and offsets. Days of the year are matched with dates by induction and the finite table of months.",
"C60": "`update` in any environment with a log of which child is updated; induction over children.",
"C61": "`SslTransport` with an arbitrary environment and an event log; invariant over histories relating the transport's state to an observer of the log.",
"C62": "base64, form quoting and the cipher on all texts; round trips by induction, calls by case analysis.",
"C63": "UTF-8 and base64 on all texts; requests recorded in a log; case analysis on the outcome of the exchange.",
"C64": "Model the hook, set_effect and set_brightness of the three modules and both tables of effects; specify a bulb and a strip that do what they are told; prove what is sent and that the next reading shows it.",
"C65": "Model the device as an environment with arbitrary state, answers and delays and the update as a loop over the remaining time that logs what happens; induct on the time left.",
"C66": "Specify the light as a record and each operation's effect on it, and the devices as stores; show that the store refines the record step by step, then induct over the history; show that a store in the state of the record is read as such.",
"C67": "Specify the robot as a small machine with a progress and the settings as a record; show each operation's call drives the machine as stated, refine the stored dicts to the record and induct over the history; prove the negations with general witnesses.",
"C68": "Specify the camera as a store of sections and the panel of switches as a function; refine step by step and induct over the history; the motor as a walk in the plane.",
"C69": "Specify the thermostat as on/target/offset with a range; refine the stored dict to it, induct over the history; characterise the mode by cases on the list of states.",
"C70": "Writer by recursion on the value, reader with a bound on the steps; mutual induction over values for the round trip, a proof that the bound is no restriction, and that the reader does not look past a value, from which cut texts are refused.",
"C71": "Specify a URL reader after RFC 3986 and percent-decoding; show that escaped text has no separators and decodes to the bytes, then the parts; the hash by the round trips of JSON, UTF-8 and base64.",
"C72": "The module over an arbitrary environment with call, sleep and update; the requests as a prefix of a plan in every outcome; a hub machine that reads the requests independently, and induction over the operations.",
"C73": "Exact rational arithmetic; characters by their numbers for the names; a relation of owner and device kept by every request, and induction over the operations.",
"C74": "For one setting: which fields of which dict change, from the update laws of dicts. For histories: an invariant relating device, read state and wishes with the set of dicts changed since the last update.",
"C75": "The invariant that client and device have the same keys or the device has none, and that the device's last sequence number is not above the client's; each exchange is split by its fate. Queries are handled by a lemma that lifts any reflexive and transitive relation from messages to queries. Results follow from C06 by comparing with a transport that never fails.",
"C76": "The invariant of C03 (all bytes of all answers on the open connection are consumed) with the answers now produced by a program; one request is analysed by whether the device carried it out, queries by induction over the attempts.",
"C77": "The calls of all _initialize_features methods are a table; that no two ids or names coincide apart from the listed pairs is decided over the table, and the registration loops are analysed by induction over any list of modules.",
"C78": "The device and the network are an environment of the transport model of C13. An invariant relates the keys of both sides between requests; each request is analysed through handshake, login and passthrough. The part about queries is shared with C75 through a lemma about any transport that carries requests out at most once.",
"C79": "Model what SmartCamDevice overrides of the update of SmartDevice, with arbitrary modules and answers. The loop over the list is analysed by induction with an invariant about the children created so far; the rest reuses the lemmas of C33 and C34.",
"C80": "Model cli and its helpers as a monad over the events of a run with arbitrary answers; prove Hoare triples about which events may occur and what is known of the device at each point, and read the theorems off the cases of a whole run.",
"C81": "Model the search as a state machine stepped by the events of an arbitrary schedule; prove an invariant relating its state to the list of events so far.",
"C82": "Model _get_child_device and the wrapper with an arbitrary body; characterise the choice by an independent relation (Chosen) and prove both directions, with induction over the inputs of the prompt.",
"C83": "Model every command as a computation over what it does; specify by a table what each command asks for and needs; prove with a small logic of computations that the changes made are a prefix of the change asked for.",
"C84": "Compose the model of a run with that of the commands; prove that the commands not listed write nothing by themselves, and count the documents over the cases of a run.",
"C85": "The device and the network are an environment of the transport model of C61. Each request is analysed through expiry check, login and request; a login leaves the program alone. The recovery uses the invariant that the transport has no session or the one the device has, which every request establishes once nothing goes wrong. The part about queries is shared with C75 and C78.",
"C86": "The camera and the network are an environment of the transport model of C14. Each request is analysed through probes, login and request; a login leaves the program alone; the invariant is that the keys the transport holds are those of a secure login.",
"C87": "An invariant of all histories (the state is either before a login or that of some login, user name one of the possible ones) and a stronger one for the time after a reset; one step lemma for each; then the retry loop of the protocol over any transport with these two step lemmas. For KLAP and AES the calm executions of C75 and C78 are started at any later moment.",
"C88": "A transition system of the call, the search task and the callback tasks, with the existing model of datagram_received; invariants for each claim; a lexicographic rank and the task that has to act next for the end on fair schedules.",
"C89": "A transition system of any number of clients and sessions; an invariant that ties every client to its session, every open session to its client, and the jar to the history since the head of the last answer.",
"C90": "A Hoare-style triple for the code of queries over a transport that passes on what the device may answer; the at-most-once theorems of C75, C76, C78 and C85 supply such transports; then C33 for updates.",
"C91": "C66 gives what each call sends and what each reading shows; C75, C76, C78, C85 and C90 give what becomes of a request and what a query returns; induction over the calls, with the state of the device as invariant.",
"C92": "C10 gives the envelope and what is made of its answer, C75, C76, C78 and C85 what becomes of the envelope on the way; induction over the calls with the states of the children as invariant; C36 for the update.",
"C93": "Model requires_update, update_from_discover_info and the readings over the state of the update model (C22, C53); induction over the events with the state of knowledge as invariant.",
"C94": "The transport of C86 is faithful to the camera, so the triple of C90 applies to camera queries; then induction over the operations with the state of the switches as invariant; C33 for cameras gives the updates.",
"C95": "Each row of the tables is compared with the specification's table; the lookup is unfolded once for each kind of row over arbitrary attributes and modules.",
"C96": "A loop that adds lines is followed by induction over the features; each feature's outcome is caught in its own turn; filters by category form a permutation of the features.",
"C97": "Each feature id is mapped to what its attribute computes; the claims are case distinctions over arbitrary reports.",
"C98": "The callbacks are tasks that hold a semaphore; an invariant over all schedules gives the shape of the output, a measure their end.",
"C99": "An invariant over all histories: each probe sent carries the public half of the one key pair; the round trips of RSA, CBC and padding then give the data.",
"C100": "Rules are read by a model of the generated parser; a device that obeys is specified by its list of rules; the claims follow by induction over the list.",
"C101": "The device is any function of the earlier requests and the request; requests are recorded. The statistics reuse the conversion of C28 and the sums of C54; strips by induction over the sockets; supports by induction over the history of updates.",
"C102": "A device is any state with a step function; the specification says what a bulb and a dimmer do with requests. Reading and the encodings by the fields; orders by cases; the counterexamples hold for every device that meets the specification, and sample devices meet it.",
"C103": "Tables of lazy commands and packages are arbitrary; help by induction over the table; the tool's own table by evaluation of the whole finite table. Removing tags is proved equivalent to an inductive specification by strong induction over the text. Raw commands reuse C23.",
"C104": "`_initialize_modules` of each class is a fold of `add`; its names are computed from those added. The query of each module has a closed form by induction over its commands; the requests of an update are bounded from both sides by the packing theorem of C22.",
"C105": "Events replace the device information; readings are computed from a report given by a specification; names by the round trip of base64 and UTF-8 (C63).",
"C106": "Reports as dictionaries with ten fields; operations as a returned request and the device afterwards; a specification of an account that obeys requests."
}
