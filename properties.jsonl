{"id": "C01", "title": "Kernel messages survive the wire", "statement": "Serializing a message (identities, header, parent header, metadata, content, binary buffers) with an authentication object and deserializing the resulting multipart with an authentication object of the same scheme and key gives back exactly the same six parts, whatever the number of identities and buffers, provided no identity equals the delimiter and the JSON parts are representable (valid UTF-8, canonical).", "quantifier": "every message value with delimiter-free identities, every authentication scheme and key, every JSON error handler", "why_tests_cant": "identity lists, buffers and JSON values are unbounded; a test covers a handful of messages and never identities that look like frames of the protocol", "anchors": ["src/xmessage.cpp: xmessage::serialize, xmessage::deserialize, xmessage_base::serialize, xmessage_base::deserialize, xmessage_base::is_delimiter"]}
{"id": "C02", "title": "Published messages survive the wire", "statement": "Serializing an iopub message (topic plus the five parts) and deserializing it with the same authentication gives back the same topic and parts, for every topic, including topics that are empty or equal to the delimiter.", "quantifier": "every publication message, scheme, key and error handler", "why_tests_cant": "unbounded message space; odd topics are never tried by tests", "anchors": ["src/xmessage.cpp: xpub_message::serialize, xpub_message::deserialize"]}
{"id": "C03", "title": "Exact fate of every received multipart", "statement": "For every multipart delivered to the kernel exactly one of three things happens when it is decoded: it is accepted (it has a delimiter followed by at least five frames, four JSON documents and a good signature), it is rejected with an exception (no delimiter, delimiter last, JSON error, signature mismatch), or decoding runs into undefined behaviour, and the latter happens exactly when the multipart has no frame at all, has one to four frames after the delimiter, or (all four JSON frames parse and) the signature frame is shorter than the hexadecimal digest. In particular nothing malformed is ever accepted.", "quantifier": "every finite list of byte frames, scheme and key", "why_tests_cant": "malformed inputs form an infinite set; the exact boundary of undefined behaviour cannot be established by running samples", "anchors": ["src/xmessage.cpp: xmessage::deserialize, xmessage_base::deserialize", "src/xauthentication.cpp: openssl_xauthentication::verify_impl"]}
{"id": "C04", "title": "Only correctly signed messages are accepted", "statement": "With any scheme other than \"none\", a multipart is accepted only if its signature frame begins with the lowercase hexadecimal HMAC, under the kernel's key, of the concatenation of the four JSON frames; conversely a well-formed multipart with that signature is accepted. Hence changing the signature anywhere in its first digest-size*2 bytes, or changing signed bytes so that the HMAC differs, makes the message rejected. (A longer frame with the right prefix is accepted: this is stated and witnessed.)", "quantifier": "every multipart, every key, every MAC function", "why_tests_cant": "'no other signature is accepted' is a universally quantified negative over 2^(8n) frames", "anchors": ["src/xauthentication.cpp: openssl_xauthentication::verify_impl", "src/xmessage.cpp: xmessage_base::deserialize"]}
{"id": "C05", "title": "Own signatures verify", "statement": "For every supported scheme, key and four frames, verify accepts the signature produced by sign for those frames, the signature is digest-size*2 lowercase hexadecimal bytes (32 for hmac-md5, 40 for sha1 and ripemd160, 56, 64, 96, 128 for the sha2 schemes, 128 and 64 for blake2b512 and blake2s256), and it depends only on the concatenation of the frames. With scheme \"none\" sign yields the empty frame and verify accepts anything.", "quantifier": "all schemes, keys, frames", "why_tests_cant": "all keys and frames cannot be enumerated", "anchors": ["src/xauthentication.cpp: sign_impl, verify_impl, no_xauthentication"]}
{"id": "C06", "title": "What a signature does not protect", "statement": "Acceptance and the decoded JSON parts do not depend on the binary buffers or the identities, which can be added, removed or altered without changing acceptance; and moving bytes across the boundaries of the four signed frames never changes the verification verdict.", "quantifier": "every multipart and every alteration of that kind", "why_tests_cant": "metamorphic statement over all pairs of messages", "anchors": ["src/xauthentication.cpp: verify_impl", "src/xmessage.cpp: xmessage_base::deserialize (TODO comment about buffers)"]}
{"id": "C07", "title": "Signing is thread safe", "statement": "Any number of threads concurrently signing and verifying on one authentication object obtain, under every interleaving of the individual HMAC calls, exactly the results they would obtain alone; and without the mutual exclusion some interleaving gives a wrong signature.", "quantifier": "every number of threads, every list of jobs, every interleaving of HMAC_Init/Update/Final and lock steps", "why_tests_cant": "races depend on schedules which tests cannot enumerate", "anchors": ["src/xauthentication.cpp: openssl_xauthentication::sign_impl, verify_impl, m_hmac_mutex"]}
{"id": "C08", "title": "Hexadecimal identifiers are faithful", "statement": "The hexadecimal rendering used for signatures and identifiers is injective, has exactly two characters per byte, uses only 0-9a-f and decodes back to the bytes; consequently generated identifiers are 32 characters long, are never empty, never collide with the frame delimiter, and are equal only if the underlying 16 random bytes are.", "quantifier": "all byte strings", "why_tests_cant": "injectivity over all byte strings", "anchors": ["src/xstring_utils.hpp: hex_string", "src/xguid.cpp: new_xguid"]}
{"id": "C09", "title": "Scheme selection never silently disables authentication", "statement": "An authentication object that accepts unsigned messages is created only for the scheme literally equal to \"none\"; the nine listed hmac schemes select the corresponding digest; every other scheme string (including the empty one) makes creation fail with an exception.", "quantifier": "every scheme string and key", "why_tests_cant": "negative statement over all strings", "anchors": ["src/xauthentication.cpp: make_xauthentication, asevp"]}
{"id": "C10", "title": "UTF-8 validity test", "statement": "The validity test applied to identities before they are logged answers true exactly for the byte sequences that are well-formed UTF-8 per the Unicode standard (Table 3-7): no overlong forms, no surrogates, nothing above U+10FFFF, no truncated sequence.", "quantifier": "every byte string", "why_tests_cant": "infinite input set; table driven automaton errors are invisible to samples", "anchors": ["src/xlogger_impl.cpp: is_utf8_valid, decode, utf8d"]}
{"id": "C11", "title": "Rejected messages have no effect", "statement": "A multipart whose decoding is rejected leaves no trace: nothing is published, no reply is sent, and the interpreter, history, comms, execution counter and remembered parent are unchanged; the kernel goes on with the next message.", "quantifier": "every kernel state, interpreter, channel and every rejected multipart", "why_tests_cant": "must hold in every reachable state and for every forgery", "anchors": ["src/xkernel_core.cpp: dispatch"]}
{"id": "C12", "title": "Busy/idle bracketing", "statement": "For every accepted message whose type is a string (or absent), everything published or sent while it is handled lies strictly between exactly one status 'busy' and exactly one status 'idle' notification published for it, both carrying that message's header as parent, unless user code throws something that is not a std::exception, blocks for ever, or hits undefined behaviour.", "quantifier": "every interpreter, debugger, comm callback, kernel state, message and channel", "why_tests_cant": "quantifies over all interpreters and all failure points", "anchors": ["src/xkernel_core.cpp: dispatch, publish_status"]}
{"id": "C13", "title": "Replies go back to the requester", "statement": "Every reply sent while a message is handled on a channel (other than the abort replies to queued requests) is sent on that same channel, to exactly the identities of the message being handled, with exactly its header as parent header, a reply type obtained from the request type, and the kernel's session.", "quantifier": "every interpreter, kernel state and message", "why_tests_cant": "must hold for every handler path including after nested publications and comm traffic", "anchors": ["src/xkernel_core.cpp: send_reply, set_parent, get_parent_id"]}
{"id": "C14", "title": "At most one reply; exactly one for a well-formed request", "statement": "Handling one message sends at most one reply to it. A request whose fields have the documented types and whose interpreter call returns an object normally is answered exactly once, for each of the request types execute, complete, inspect, is_complete, history, comm_info, kernel_info, shutdown, interrupt (and debug when a debugger is present); comm_open, comm_msg, comm_close are never answered.", "quantifier": "every interpreter behaviour, every request", "why_tests_cant": "at-most-once must hold on all paths incl. exceptional ones", "anchors": ["src/xkernel_core.cpp: all *_request handlers, send_reply"]}
{"id": "C15", "title": "Unknown message types are harmless", "statement": "An accepted message whose type is not one of the thirteen known ones (or is absent) produces exactly the busy and idle notifications and no other effect on interpreter, history, comms, counter.", "quantifier": "every message type string outside the thirteen, every state", "why_tests_cant": "all other strings", "anchors": ["src/xkernel_core.cpp: dispatch, get_handler"]}
{"id": "C16", "title": "A std::exception in a handler never kills the dispatch loop", "statement": "Dispatch of an accepted message lets an exception escape exactly when (a) the header is not an object or its msg_type is not a string, or (b) user code threw something not derived from std::exception; any std::exception thrown by interpreter, debugger, comm callback or by malformed request fields is absorbed and the idle notification still follows.", "quantifier": "every interpreter, every exception and point of throwing, every request content", "why_tests_cant": "exception at every possible point of arbitrary user code", "anchors": ["src/xkernel_core.cpp: dispatch, execute_request"]}
{"id": "C17", "title": "Execution counter law", "statement": "After any sequence of messages the execution counter equals the number of execute requests with silent=false whose fields have the documented types that have been handled since the start (failed executions included, rejected/malformed/silent ones and all other requests excluded), and the value shown to the interpreter for each of them is its rank.", "quantifier": "every finite history of messages on both channels, every interpreter", "why_tests_cant": "property of unbounded histories", "anchors": ["src/xinterpreter.cpp: execute_request", "src/xkernel_core.cpp: execute_request"]}
{"id": "C18", "title": "Shape of an execution", "statement": "A non-silent execute request publishes, right after 'busy' and before anything the interpreter outputs, one execute_input with exactly the submitted code and the new count; the execute_reply comes after every output of the interpreter and carries that same count; a silent one publishes no execute_input, leaves the counter unchanged and reports the unchanged counter.", "quantifier": "every code, interpreter and state", "why_tests_cant": "order and equality over all interpreter behaviours", "anchors": ["src/xinterpreter.cpp: execute_request, publish_execution_input", "src/xkernel_core.cpp: execute_request"]}
{"id": "C19", "title": "What goes into the history", "statement": "Handling a message appends to the history exactly one entry iff it is an execute request with silent=false and store_history=true whose interpreter call returned an object with a well-typed status and whose reply was sent; the entry holds exactly the submitted code with session 0 and the line number taken from the request's execution_count field (default 1); otherwise the history is unchanged. The history is never reordered or truncated by any message.", "quantifier": "every sequence of messages and interpreter", "why_tests_cant": "unbounded histories, all failure paths", "anchors": ["src/xkernel_core.cpp: execute_request", "src/xin_memory_history_manager.cpp: store_inputs_impl"]}
{"id": "C20", "title": "stop_on_error aborts exactly the queued requests", "statement": "When a non-silent execute request with stop_on_error=true ends with a status 'error', every well-formed message waiting on the shell socket is answered, in arrival order, by one error reply to its own identities with its own header as parent and is not executed, malformed ones are dropped, and the queue is empty afterwards; in all other cases no queued message is consumed.", "quantifier": "every queue content, every interpreter", "why_tests_cant": "queue contents unbounded; includes adversarial queued messages", "anchors": ["src/xkernel_core.cpp: execute_request, abort_request", "src/xserver_zmq.cpp: abort_queue_impl", "src/xshell.cpp: abort_queue"]}
{"id": "C21", "title": "Name of an abort reply", "statement": "For every message type of the form X_request with the final underscore starting '_request', the abort reply type is X_reply; a type containing no underscore makes the abort loop fail with an exception, so that later queued messages stay in the queue; other types get everything from the last underscore (at most eight bytes) replaced by '_reply'.", "quantifier": "every type string", "why_tests_cant": "all strings", "anchors": ["src/xkernel_core.cpp: abort_request"]}
{"id": "C22", "title": "Shutdown", "statement": "A well-formed shutdown request calls the interpreter's shutdown hook exactly once, then asks the server to stop exactly once, then publishes 'shutdown' and answers shutdown_reply with the same restart flag as requested (default false), in that order; if the hook throws a std::exception the server is not asked to stop and no reply is sent. No other request type ever asks the server to stop.", "quantifier": "every interpreter, state, message", "why_tests_cant": "'no other message stops the server' is over all messages and interpreters", "anchors": ["src/xkernel_core.cpp: shutdown_request"]}
{"id": "C23", "title": "Interrupt", "statement": "An interrupt request publishes one 'interrupt' notification with an empty object and is answered by an empty object on the channel it came from, whatever the content of the request, and changes no other state.", "quantifier": "every content and state", "why_tests_cant": "all contents and states", "anchors": ["src/xkernel_core.cpp: interrupt_request"]}
{"id": "C24", "title": "Requests reach the interpreter unaltered", "statement": "complete, inspect, is_complete and execute requests call the corresponding interpreter method exactly once with exactly the fields of the request, with the documented defaults for absent fields (code \"\", cursor_pos -1, detail_level 0, silent false, store_history true and forced to false when silent, user_expressions {}, allow_stdin true), and the interpreter's answer is returned verbatim as reply content (kernel_info with protocol_version set, execute with execution_count set). A request with a field of another type reaches no user code and gets no reply; one with a double whose integral part is no int, in the place of an int, is undefined behaviour.", "quantifier": "every field value, every subset of fields present, every interpreter", "why_tests_cant": "all combinations of present/absent fields and values", "anchors": ["src/xkernel_core.cpp: execute_request, complete_request, inspect_request, is_complete_request, kernel_info_request"]}
{"id": "C25", "title": "comm_info tells the truth", "statement": "The reply to comm_info_request lists exactly the comms registered at that time, each with the name of its target, restricted to the requested target name when it is a non-empty string.", "quantifier": "every comm registry state", "why_tests_cant": "reachable registries are unbounded", "anchors": ["src/xkernel_core.cpp: comm_info_request"]}
{"id": "C26", "title": "Identity and form of outgoing messages", "statement": "Every message the kernel emits has a header with exactly the keys msg_id, username, session, date, msg_type, version; username and session are those of the kernel; version is the protocol version; message ids of distinct messages are distinct as long as the GUID source never repeats; iopub topics are kernel_core.<kernel id>.<msg_type>.", "quantifier": "every execution of the kernel", "why_tests_cant": "uniqueness across whole unbounded executions", "anchors": ["src/xmessage.cpp: make_header", "src/xkernel_core.cpp: publish_message, get_topic"]}
{"id": "C27", "title": "Outputs are attributed to the request that caused them", "statement": "Everything the interpreter publishes while a shell request is being handled carries that request's header as parent header. On the control channel the status notifications carry the control request's header while interpreter output carries the header of the last shell request (deviation made precise).", "quantifier": "every interpreter, sequence of messages", "why_tests_cant": "over all histories", "anchors": ["src/xkernel_core.cpp: constructor (register_publisher), publish_message, get_parent_header"]}
{"id": "C28", "title": "Blocking input delivers the user's answer", "statement": "While code executes, a blocking input request sends exactly one input_request carrying the prompt and password flag to the identities of the current shell request with its header as parent, then consumes exactly one stdin message and returns its 'value' string when that message is well-formed and signed; afterwards no input handler remains registered.", "quantifier": "every prompt, interpreter, stdin traffic", "why_tests_cant": "all stdin traffic and nesting", "anchors": ["src/xinput.cpp: blocking_input_request", "src/xinterpreter.cpp: input_request, input_reply", "src/xkernel_core.cpp: send_stdin, dispatch_stdin", "src/xserver_zmq.cpp: send_stdin_impl"]}
{"id": "C29", "title": "Bad stdin replies", "statement": "A stdin message that is rejected, has a non-object content or a non-string value never crashes or throws: the blocking input request returns the empty string; an absent value also gives the empty string.", "quantifier": "every rejected or ill-typed stdin multipart", "why_tests_cant": "infinite set of bad inputs", "anchors": ["src/xkernel_core.cpp: dispatch_stdin"]}
{"id": "C30", "title": "Internal requests", "statement": "A JSON document sent from the control side to the shell through the control messenger reaches the interpreter unchanged and the interpreter's answer comes back unchanged, with both messengers; and no JSON document can be mistaken for the internal stop command of the split server.", "quantifier": "every JSON value, interpreter", "why_tests_cant": "all JSON values", "anchors": ["src/xkernel_core.cpp: dispatch_internal", "src/xtrivial_messenger.cpp: send_to_shell_impl", "src/xzmq_messenger.cpp: send_to_shell_impl", "src/xshell.cpp: run"]}
{"id": "C31", "title": "Session transcript is the concatenation of request transcripts", "statement": "For every sequence of messages handled in turn, the emitted traffic is the concatenation, in order, of one block per accepted message (none for rejected ones), each block beginning with busy and ending with idle with the parent header of its own request; blocks never overlap.", "quantifier": "every finite sequence of messages, every interpreter", "why_tests_cant": "unbounded sequences", "anchors": ["src/xkernel_core.cpp: dispatch"]}
{"id": "C32", "title": "Shell and control do not mix up parents when running in parallel", "statement": "When the shell and control threads of the split server handle messages concurrently, under every interleaving of their atomic steps each reply on a channel is addressed to the identities and carries the header of the message being handled on that channel.", "quantifier": "every interleaving of two dispatch threads at the granularity of single effects", "why_tests_cant": "schedules", "anchors": ["src/xkernel_core.cpp: m_parent_id, m_parent_header, set_parent, send_reply"]}
{"id": "C33", "title": "Start message", "statement": "The first message handed to the server at start (after what the interpreter may have published while it was configured, which has no parent) is a status 'starting' publication on topic kernel_core.<id>.status, without parent, correctly signed, and is decodable by a client holding the key.", "quantifier": "every kernel id, key, scheme, user name", "why_tests_cant": "all keys/ids", "anchors": ["src/xkernel_core.cpp: build_start_msg", "src/xkernel.cpp: start"]}
{"id": "C34", "title": "Comm registry never dangles (disciplined use)", "statement": "Starting from an empty manager, after any sequence of creating comms with fresh ids, moving, copying, assigning between live distinct comms, destroying and dispatching comm traffic, the registry maps exactly the ids of the live (not moved-from) comms to exactly those objects; no registry pointer dangles.", "quantifier": "every finite sequence of comm operations obeying the stated discipline", "why_tests_cant": "unbounded sequences of lifetime operations", "anchors": ["include/xeus/xcomm.hpp: xcomm constructors, assignment, destructor", "src/xcomm.cpp: register_comm, unregister_comm"]}
{"id": "C35", "title": "comm_open", "statement": "A comm_open for a registered target invokes that target's callback exactly once with a comm bearing the requested id, registered under that id, and with the request itself; for an unregistered target it throws and changes nothing.", "quantifier": "every manager state, id, target, callback", "why_tests_cant": "all states and callbacks", "anchors": ["src/xcomm.cpp: xcomm_manager::comm_open"]}
{"id": "C36", "title": "comm_msg routing", "statement": "A comm_msg with the id of a registered comm runs the message handler of exactly that comm once with the request (nothing if it has none); with an unknown id it throws and changes nothing.", "quantifier": "every registry state and message", "why_tests_cant": "all states", "anchors": ["src/xcomm.cpp: xcomm_manager::comm_msg", "include/xeus/xcomm.hpp: handle_message"]}
{"id": "C37", "title": "comm_close", "statement": "A comm_close with the id of a registered comm runs its close handler once with the request and then the id is no longer registered (a second close throws); if the handler throws the id stays registered; unknown ids throw and change nothing.", "quantifier": "every registry state and close handler", "why_tests_cant": "all states and handlers", "anchors": ["src/xcomm.cpp: xcomm_manager::comm_close"]}
{"id": "C38", "title": "Moving keeps identity, copying does not share it", "statement": "Moving a comm transfers its id, target and handlers and the registry entry to the new object; copying gives a comm with a fresh id, the same target and no handlers, and leaves the original registered.", "quantifier": "every state and live comm", "why_tests_cant": "all states", "anchors": ["include/xeus/xcomm.hpp: xcomm(xcomm&&), xcomm(const xcomm&), operator="]}
{"id": "C39", "title": "Outgoing comm messages", "statement": "open, send and close publish exactly one message of type comm_open, comm_msg, comm_close whose content has exactly the comm's id, the given data (and, for open only, the name of its target), with the given metadata and buffers.", "quantifier": "every comm, data, buffers", "why_tests_cant": "all values", "anchors": ["include/xeus/xcomm.hpp: open, close, send, send_comm_message", "src/xcomm.cpp: xtarget::publish_message"]}
{"id": "C40", "title": "Comm lifetime hazards", "statement": "Without the discipline of C34 the registry can dangle or lose comms: destroying a comm that was never moved from or to reads an uninitialised flag; assigning to a moved-from comm (hence std::swap) unregisters another live comm; self-move-assignment followed by destruction leaves a dangling entry; unregistering a target that still has comms makes their destruction undefined; asking the comm manager for the target of an unregistered name plants a target without manager, so that every comm made for it, and every comm a client opens for that name, is undefined behaviour. Each is exhibited by a concrete execution.", "quantifier": "existential (negations of the unconditional C34)", "why_tests_cant": "undefined behaviour is typically silent in tests", "anchors": ["include/xeus/xcomm.hpp"]}
{"id": "C41", "title": "Tail queries", "statement": "A tail query with n>=0 returns exactly the last min(n, size) stored inputs in chronological order, each as (session, line, input) with session and line as decimal strings (plus the stored output as a fourth column when output=true).", "quantifier": "every history, every n>=0", "why_tests_cant": "unbounded histories and n", "anchors": ["src/xin_memory_history_manager.cpp: get_tail_impl, store_inputs_impl"]}
{"id": "C42", "title": "Range queries", "statement": "A range query with 0<=start returns exactly the stored entries (same columns as a tail query) at 0-based positions start <= i < min(stop,size) in order, status ok, when start <= stop and start <= size, and an error reply otherwise.", "quantifier": "every history, every start>=0 and stop", "why_tests_cant": "all arguments", "anchors": ["src/xin_memory_history_manager.cpp: get_range_impl"]}
{"id": "C43", "title": "Search selects the last n matching inputs", "statement": "A search query with n>=0 returns, in chronological order, the last n of the stored inputs that match the pattern; with unique=true, runs of adjacent equal matching entries are collapsed first (only adjacent ones).", "quantifier": "every history, pattern, n>=0", "why_tests_cant": "all histories/patterns", "anchors": ["src/xin_memory_history_manager.cpp: search_impl, clean_history"]}
{"id": "C44", "title": "Glob meaning of search patterns", "statement": "For patterns free of backslashes and NUL, an input matches iff some substring of it (up to its first NUL byte) matches the pattern where '*' stands for any sequence without line ends, '?' for any single byte that is not a line end and every other character for itself; patterns whose only backslash is their last character make the search fail with an exception.", "quantifier": "every such pattern and every input", "why_tests_cant": "all patterns and strings", "anchors": ["src/xin_memory_history_manager.cpp: sanitize_pattern / search_impl (regex escaping)"]}
{"id": "C45", "title": "History request decoding", "statement": "Whatever the history manager, a history request is routed by hist_access_type to its function for tail, search or range with exactly its fields and the documented defaults; any other access type yields a null reply; a content that is not an object or whose access type is not a string is refused; with the in-memory manager the raw flag never changes the result and the output flag only adds the stored output as a fourth column.", "quantifier": "every manager, request content and history", "why_tests_cant": "all contents", "anchors": ["src/xhistory_manager.cpp: process_request"]}
{"id": "C46", "title": "History queries are memory safe exactly on non-negative arguments", "statement": "A tail query is undefined behaviour exactly for n<0, a range query exactly for start<0 and start<=stop, a search exactly for n<0 with a pattern that compiles; a request is undefined otherwise only if one of its fields n, session, start, stop is a double whose integral part is no int, and is so if such a field is read.", "quantifier": "every history and argument", "why_tests_cant": "UB boundary", "anchors": ["src/xin_memory_history_manager.cpp"]}
{"id": "C47", "title": "Main-loop scheduling of the default server", "statement": "In every schedule of arrivals, the single-threaded server handles control messages and shell messages each in arrival order, each exactly once, handles a pending control message before a pending shell message of the same poll round, and never handles a shell message after a stop request has been made.", "quantifier": "every arrival schedule, every handler behaviour", "why_tests_cant": "all arrival interleavings", "anchors": ["src/xserver_zmq.cpp: start_impl, poll"]}
{"id": "C48", "title": "Publisher keeps order and loses only a suffix", "statement": "What the publisher thread has forwarded to clients is at any time, in order and unaltered, a subsequence of what the kernel published (per publishing socket in the split servers): what the publisher socket itself drops (ZeroMQ may) is missing, what is still queued when the thread observes the stop command is lost, and nothing else; if the socket drops nothing, it is a prefix.", "quantifier": "every interleaving of publications, publisher steps and stop", "why_tests_cant": "schedules", "anchors": ["src/xpublisher.cpp: run"]}
{"id": "C49", "title": "Heartbeat echoes", "statement": "The heartbeat thread answers every ping, in order, with a byte-identical message, exactly once, until it observes the stop command.", "quantifier": "every sequence of pings and schedule", "why_tests_cant": "schedules", "anchors": ["src/xheartbeat.cpp: run"]}
{"id": "C50", "title": "Orderly stop of the channels of the default server", "statement": "When the server stops, it leaves its run method only after both auxiliary threads have acknowledged their stop commands; as long as no handler fails, in every schedule the protocol never deadlocks after a stop request, and every fair schedule terminates.", "quantifier": "every interleaving of the main thread with publisher and heartbeat threads", "why_tests_cant": "schedules and liveness", "anchors": ["src/xserver_zmq.cpp: start_impl, stop_channels", "src/xpublisher.cpp", "src/xheartbeat.cpp"]}
{"id": "C51", "title": "Split servers: order and end of the loops", "statement": "In the split servers each socket is served in arrival order. After a stop request handled by the control thread no further control message is handled; after one handled by the shell thread while the control thread runs, at most one, but until it arrives the kernel does not end; one handled by the shell thread before the control thread enters its loop is lost. After the stop command the shell thread handles at most two more messages. The process exits only when all loops have ended, and in fair executions it does, if no handler fails and the control thread has aborted no shell message; otherwise there can be a deadlock.", "quantifier": "every interleaving of the four threads and the clients", "why_tests_cant": "schedules and liveness", "anchors": ["src/xcontrol.cpp: run", "src/xshell.cpp: run", "src/xserver_zmq_split.cpp: stop_impl", "src/xzmq_messenger.cpp: stop_channels", "src/xserver_control_main.cpp: start_impl", "src/xserver_shell_main.cpp: start_impl"]}
{"id": "C52", "title": "Publications use the socket of their own thread", "statement": "In the split servers a thread sends what it publishes through the publisher socket it owns, except for the following: the shell thread publishes the notifications of shutdown and interruption, and the control thread what user code that it runs publishes, through the socket of the other thread. Both exceptions occur.", "quantifier": "every interleaving of the two threads, every message and interpreter", "why_tests_cant": "ZeroMQ sockets are not thread safe; violation shows only as rare races", "anchors": ["src/xserver_zmq_split.cpp: publish_impl", "src/xkernel_core.cpp"]}
{"id": "C53", "title": "DAP framing is independent of TCP segmentation", "statement": "For every sequence of messages sent by the debug adapter and every way of cutting the byte stream into chunks, repeated reading extracts exactly those messages, in order, unaltered; a read returns only at a message boundary and never waits for bytes that are not needed.", "quantifier": "every list of message bodies, every chunking", "why_tests_cant": "all chunkings of unbounded streams", "anchors": ["src/xdap_tcp_client.cpp: handle_tcp_socket, append_tcp_message"]}
{"id": "C54", "title": "DAP requests are well framed", "statement": "The bytes sent for a request are Content-Length: <n>CRLFCRLF followed by exactly n bytes, the JSON text; parsing them back with the client's own framing yields that text.", "quantifier": "every JSON value", "why_tests_cant": "all values", "anchors": ["src/xdap_tcp_client.cpp: send_dap_request", "src/xdebugger_base.cpp: forward_message"]}
{"id": "C55", "title": "Waiting for a message loses no other message", "statement": "Waiting for a message satisfying a condition returns a message satisfying it and keeps all other received messages queued in order; if several satisfying messages come in the same batch the last one is returned and the earlier ones are lost (stated exactly).", "quantifier": "every queue, batch sequence and condition", "why_tests_cant": "all batches", "anchors": ["src/xdap_tcp_client.cpp: wait_for_message"]}
{"id": "C56", "title": "Debugger messages are routed by type", "statement": "Processing the queue handles every message exactly once in order: events go to the event handler, everything else goes verbatim to the requester, and a response to 'disconnect' requests the stop of the client; the queue is empty afterwards.", "quantifier": "every queue of JSON messages", "why_tests_cant": "all queues", "anchors": ["src/xdap_tcp_client.cpp: process_message_queue"]}
{"id": "C57", "title": "Parallel initialization sequence", "statement": "Whatever the order in which the adapter sends its initialized event, the configurationDone response and the attach response, and whatever other messages are interleaved in separate batches, the client sends configurationDone with the successor sequence number exactly once, then forwards the initialized event and the attach response in this order, keeping all other messages queued in order.", "quantifier": "every interleaving of adapter messages", "why_tests_cant": "all interleavings", "anchors": ["src/xdap_tcp_client.cpp: handle_init_sequence, wait_for_message"]}
{"id": "C58", "title": "Debug events are attributed", "statement": "Every forwarded debug event is published with topic and type debug_event, the event as content unaltered, signed with the kernel's key, and with the last received parent header (empty object before any).", "quantifier": "every event and parent header", "why_tests_cant": "all values", "anchors": ["src/xdap_tcp_client.cpp: forward_event, handle_header_socket"]}
{"id": "C59", "title": "Nothing reaches a debugger that was not started", "statement": "Before an initialize request succeeds (and after disconnect) every request other than debugInfo, initialize and disconnect-handling leaves the adapter untouched: nothing is forwarded and an error-free local answer is given. An initialize request for which the debugger cannot be started is answered by a failure response to that request.", "quantifier": "every request sequence", "why_tests_cant": "all sequences", "anchors": ["src/xdebugger_base.cpp: process_request_impl"]}
{"id": "C60", "title": "debugInfo reports the breakpoints last set", "statement": "After any sequence of debug requests, debugInfo lists, for every source, exactly the breakpoints of the last setBreakpoints request handled for it since the debugger was last disconnected.", "quantifier": "every finite sequence of debug requests", "why_tests_cant": "unbounded sequences", "anchors": ["src/xdebugger_base.cpp: set_breakpoints_request, debug_info_request, process_request_impl"]}
{"id": "C61", "title": "debugInfo reports the stopped threads", "statement": "After any sequence of requests and events the set of stopped threads reported is exactly the set of threads whose last stopped/continued event since the last disconnect was 'stopped' (allThreadsContinued/allThreadsStopped are not looked at).", "quantifier": "every event sequence", "why_tests_cant": "unbounded sequences", "anchors": ["src/xdebugger_base.cpp: handle_event, stopped_event, continued_event"]}
{"id": "C62", "title": "Disconnect resets the debugger", "statement": "After a disconnect request that is answered the debugger is reported not started, with no breakpoints and no stopped threads, whatever happened before, and can be initialized again; a disconnect that fails may leave everything as it was.", "quantifier": "every history", "why_tests_cant": "unbounded histories", "anchors": ["src/xdebugger_base.cpp: process_request_impl"]}
{"id": "C63", "title": "dumpCell and source", "statement": "dumpCell reports the path derived from the code; if there is no file at that path it stores exactly the code there, and then a source request for the path returns exactly the code whatever happens in between; a readable file is never overwritten by anything (so a second cell with the same path is not stored).", "quantifier": "every code string and file system state", "why_tests_cant": "all codes", "anchors": ["src/xdebugger_base.cpp: dump_cell_request, source_request", "src/xsystem.cpp: get_cell_tmp_file"]}
{"id": "C64", "title": "Variable paging and stack filtering", "statement": "variables with start/count returns the adapter's answer with exactly that slice of its variables (null if the slice is empty), or an exception when out of range; stackTrace answers whose frames have sources are cut by exactly the first frame of the kernel's own code and nothing else. Failures of the adapter, which have no body, are not passed on as they are: a paged variables request then ends with a type_error (or the answer gets a body with null variables if the page is empty), and a stackTrace answer gets a body with null frames.", "quantifier": "every adapter answer and arguments", "why_tests_cant": "all arrays and bounds", "anchors": ["src/xdebugger_base.cpp: variables_request, stack_trace_request"]}
{"id": "C65", "title": "Connection file", "statement": "Loading a connection file succeeds exactly when it holds a JSON object with string members transport and ip, integer members for the five ports, a string signature_scheme or none, and a string key if the scheme is not empty; the configuration then has exactly these fields, the ports in decimal, and no key if there is no scheme. Doubles count as the integers they are rounded to. Otherwise an exception is thrown, unless a port is a double whose integral part is no int: then, and only then, the behaviour may be undefined.", "quantifier": "every connection document", "why_tests_cant": "all documents", "anchors": ["src/xkernel_configuration.cpp: load_configuration"]}
{"id": "C66", "title": "End points and ports", "statement": "For tcp, the port read back from the end point a socket was bound to is the port it was bound with, if the end point has at most 31 characters, otherwise an exception is thrown; the configuration of a started server shows exactly the ports its five sockets are bound to, both servers alike. For other transports (separator '-') the text read back is not the port. End points of different addresses or ports differ.", "quantifier": "every transport, ip and port string", "why_tests_cant": "all strings", "anchors": ["src/xmiddleware.cpp: get_end_point, get_socket_port"]}
{"id": "C67", "title": "Free port search", "statement": "The free port search returns the first of the drawn ports that can be bound, if there is one among the allowed number of draws, it lies in the given range and the socket is then bound to it and to nothing else; otherwise it returns the empty text and the socket is not bound (the public find_free_port, which binds a socket of its own, then throws). A server socket without a given port may thus stay unbound silently.", "quantifier": "every sequence of draws, outcome of binding, bounds and tries", "why_tests_cant": "all sequences of draws and busy ports", "anchors": ["src/xmiddleware.cpp: find_free_port, find_free_port_impl"]}
{"id": "C68", "title": "Timestamps", "statement": "Message dates denote the instant they were taken: exact to the second always, exact to the microsecond exactly when the microsecond part is 0 or at least 100000 (leading zeros are dropped by the code).", "quantifier": "every instant", "why_tests_cant": "the failing instants are rare", "anchors": ["src/xmessage.cpp: iso8601_now"]}
{"id": "C69", "title": "Temporary paths", "statement": "The temporary directory is the value of the first of TMPDIR, TMP, TEMPDIR, TEMP that is set (else /tmp) without one trailing separator, and undefined exactly if that value is empty; creating nested directories makes exactly the missing directories of the path if the process may write to the part that exists and otherwise changes nothing, and reports success exactly if something of that name is then there, be it a file; cell file names are equal exactly for equal hashes, the file of a numbered cell is the decimal number in brackets with the extension in the given directory, and different processes have different prefixes.", "quantifier": "every environment and path", "why_tests_cant": "all environments", "anchors": ["src/xsystem.cpp: get_temp_directory_path, create_directory, get_cell_tmp_file"]}
{"id": "C70", "title": "First registered interpreter wins", "statement": "Whatever the sequence of registrations, the interpreter returned is the first non-null one registered, and a placeholder before that; a registration is refused exactly if a non-null interpreter was registered before.", "quantifier": "every sequence of registrations", "why_tests_cant": "sequences", "anchors": ["src/xmock_interpreter.cpp: register_interpreter, get_interpreter"]}
{"id": "C71", "title": "Log levels and chaining", "statement": "Each message is logged by every logger of a chain exactly once, in chain order, with exactly the parts of its configured level and a line that names channel and identity or topic, as long as all of them can print it; a kernel logs exactly if it was given a logger and the variable XEUS_LOG is set.", "quantifier": "every chain and message", "why_tests_cant": "all chains", "anchors": ["src/xlogger_impl.cpp: xlogger_common::log_message_impl"]}
{"id": "C72", "title": "Logging hazards", "statement": "With an active logger, logging is undefined behaviour exactly for received or sent messages without identities, and always ends. The first logger that cannot print a message throws a type error: those before it have logged it, those after it have not; a header that is no object or a type that is not a string makes all throw. Received messages with a type can always be printed, but messages the kernel itself can send with a lenient error handler may make an active logger throw.", "quantifier": "every message, chain and channel", "why_tests_cant": "UB boundary, invalid UTF-8", "anchors": ["src/xlogger_impl.cpp: log_received_message_impl, log_sent_message_impl, log_iopub_message_impl, log_message_impl"]}
{"id": "C73", "title": "Clients understand everything the kernel sends", "statement": "Every message the kernel emits during its life (start message, publications, replies, abort replies, input requests) is decoded, by a client holding the same key and scheme, to exactly the identities or topic, header, parent header, metadata, content and buffers that were meant.", "quantifier": "every kernel life: any incoming traffic, interpreter, key and scheme", "why_tests_cant": "all traffic of unbounded executions", "anchors": ["src/xmessage.cpp: serialize, deserialize", "src/xkernel_core.cpp: publish_message, send_reply, build_start_msg", "src/xserver_zmq.cpp: send_shell_impl, publish_impl"]}
{"id": "C74", "title": "Stale readiness makes the default server deaf", "statement": "When the handler of a control message empties the shell queue in a round in which a shell message had been reported as ready, the default server then waits for a shell message, and until one arrives it handles no control message, in particular no shutdown or interrupt. This happens.", "quantifier": "every execution that reaches such a state, plus a concrete one that does", "why_tests_cant": "a race between an abort and the readiness sample", "anchors": ["src/xserver_zmq.cpp: poll, abort_queue_impl, start_impl"]}
{"id": "C75", "title": "Authentication of a kernel", "statement": "The scheme none turns signatures off; a supported scheme signs with the configured key, or if that is empty with a new random key, which the configuration then shows; every other scheme, in particular the empty one of a connection file without signature_scheme, makes the construction of the kernel throw.", "quantifier": "every configuration", "why_tests_cant": "all configurations", "anchors": ["src/xkernel.cpp: init", "src/xauthentication.cpp: make_xauthentication"]}
{"id": "C76", "title": "What the interpreter publishes", "statement": "Each publishing function of the interpreter (stream, display_data, update_display_data, execute_input, execute_result, error, clear_output) sends exactly one message on the iopub channel, of that type, with exactly the documented members as content, with empty metadata and no buffers, attributed to the current shell request, and changes nothing else; if the content cannot be printed it throws and sends nothing. A sequence of such calls sends its messages in that order.", "quantifier": "every call with every argument in every state, every sequence of calls", "why_tests_cant": "all arguments and sequences", "anchors": ["src/xinterpreter.cpp: publish_stream, display_data, update_display_data, publish_execution_input, publish_execution_result, publish_execution_error, clear_output"]}
{"id": "C77", "title": "No message waits for ever", "statement": "In every execution in which a thread is never passed over for ever, every message that arrives on a socket this thread serves is eventually received, in its turn: shell and control messages by the loops of the servers, unless a stop is requested or a handler fails; published messages by the publisher and pings by the heartbeat, which send them on, unless they end. (Sockets with several senders are assumed to be fair to them.) On the control socket of the default server this holds unless a control handler aborts shell messages; then a control message may wait for ever.", "quantifier": "every execution of the default and the split servers, every message, every position", "why_tests_cant": "liveness over infinite executions and all interleavings", "anchors": ["src/xserver_zmq.cpp: poll, start_impl", "src/xcontrol.cpp: run", "src/xshell.cpp: run", "src/xpublisher.cpp: run", "src/xheartbeat.cpp: run"]}
{"id": "C78", "title": "The default server handles one message at a time", "statement": "Whatever the interleaving of arrivals, threads and the loop: whenever the default server is not handling a message, its kernel is in the state obtained by handling the messages received so far one after the other, each from start to end without anything happening in between but the arrival of messages before it; each handled message did exactly what its handler does when run alone, and took from the shell queue exactly the messages that run takes. If the server ends with an exception or undefined behaviour, or waits for ever for an input reply, it does so as when that message is handled alone.", "quantifier": "every reachable state of the server, every arrival pattern, every message, every interpreter", "why_tests_cant": "atomicity over all interleavings cannot be tested", "anchors": ["src/xserver_zmq.cpp: poll, start_impl, abort_queue_impl", "src/xkernel_core.cpp: dispatch"]}
{"id": "C79", "title": "Every request is answered", "statement": "The default server sends replies only to requests it received: for each handled message, in order, at most one reply of its own, addressed to its sender and of the type belonging to the request, followed by one error reply for each message it aborted that can be answered. In every execution in which the main thread is never passed over for ever and no handler fails, each request that arrives, and that the interpreter serves, is eventually answered, before any other message is handled, or aborted with an error reply, unless a stop is requested before it is received (for control messages: if no control handler aborts shell messages).", "quantifier": "every execution of the default server, every request, every position in the queue", "why_tests_cant": "liveness over infinite executions and all interleavings", "anchors": ["src/xserver_zmq.cpp: poll, start_impl, abort_queue_impl", "src/xkernel_core.cpp: dispatch, abort_request, send_reply"]}
{"id": "C80", "title": "Replies of two threads working at the same time", "statement": "With a shell thread and a control thread handling messages in parallel, under every interleaving the replies a thread sends between receiving a message and receiving the next one are: at most one to that message, of the type belonging to the request, on the channel the request came from, with its identities and its header as parent header; then, only if the message is an execute request that was answered, one error reply to each message it took from the shell queue that can be answered. A request whose fields have the documented types, and for which user code can only return printable answers, gets exactly one reply, or user code threw an exception while it was handled. In every execution of a split server that is fair to both threads in which no handler fails, each such request that arrives is eventually answered so, or aborted with an error reply, unless the shell thread ends, or a stop is requested (control), before it is received.", "quantifier": "every interleaving of the two threads, every interpreter, every request, every execution of the split servers", "why_tests_cant": "replies of one thread depend on state the other thread changes at any point; liveness over infinite executions", "anchors": ["src/xkernel_core.cpp: dispatch, abort_request, send_reply, execute_request", "src/xshell.cpp: run", "src/xcontrol.cpp: run"]}
{"id": "C81", "title": "Internal requests between the threads of the split servers", "statement": "In the split servers a debugger's send_to_shell sends a request from the control thread to the shell thread, which performs it between two shell messages, and returns the result. (1) Everything else that happens (messages received, sent and published, calls of user code, stop flag, state of all threads, end of the servers) happens as if the control thread had performed the requests itself: every reachable state corresponds to one of the server without these exchanges. (2) The exchanges are complete rounds one after the other (sent, received, result sent, result received, with the same text and the same result) and possibly the beginning of one; no request is lost, duplicated or answered with the result of another, and no stop command is taken for a request or vice versa. (3) While the shell thread performs a request it does nothing else, and the control thread does nothing from sending to receiving. (4) In every execution fair to both threads in which no handler fails, the shell thread does not wait for itself and the control thread aborts no shell message: every request gets its result; every well-formed client request on either socket is answered exactly once or aborted, unless the server ends; after a stop request both servers end. (5) When the shell thread cannot go on (its code never ends or fails, the internal request fails, or it asked itself), the control thread waits for ever and no further control message is received, not even a shutdown request; each of these cases happens.", "quantifier": "every interleaving of the threads and every arrival of messages, every interpreter and debugger that sends only values nl::json can hold, every fair execution", "why_tests_cant": "needs a debugger that calls back while the shell thread is at an arbitrary point of its loop; liveness over infinite executions", "anchors": ["src/xzmq_messenger.cpp: send_to_shell_impl", "src/xshell.cpp: run", "src/xcontrol.cpp: run", "src/xkernel_core.cpp: dispatch_internal, debug_request"]}
{"id": "C82", "title": "Construction connects everything once", "statement": "If a constructor of xkernel returns: the server builder was called exactly once, with the configuration given (or the default one: tcp on 127.0.0.1, scheme hmac-sha256, ports to be chosen) and a newly drawn key if it had none, then the debugger builder exactly once, with what get_config() returns from then on (the server's update of it), the user name, the session id and the debugger configuration; messages arriving on the shell, control and stdin sockets and internal requests reach the kernel's handlers for that channel; whatever the interpreter publishes, asks, looks up or does with comms reaches the kernel; messages carry the user name given, a session id, kernel id and message ids that are all distinct, are signed with the scheme and key of get_config(), and go to the logger given iff XEUS_LOG is set; configure was called once, after all this, and nothing but its output has been sent. The constructor succeeds whenever the scheme is known, the builders succeed and configure returns. An interpreter without kernel drops publications and answers input requests with the empty text. With a split server, send_to_shell called by configure blocks for ever.", "quantifier": "every configuration, builder, interpreter, logger, debugger", "why_tests_cant": "wiring of closures over all user-supplied parts; tests use one configuration", "anchors": ["src/xkernel.cpp: xkernel, init, get_config", "src/xkernel_core.cpp: xkernel_core", "src/xserver.cpp: register_*_listener, notify_*_listener, make_xserver*", "src/xinterpreter.cpp: register_*"]}
{"id": "C83", "title": "Destruction and failing construction", "statement": "A kernel whose server and debugger hold no sockets in the kernel's context can be destroyed, and a constructor that fails passes the exception on, if the destructor of the interpreter does not use the kernel (publishing, asking for input, history or comms, or reading the parent header from it is undefined: the core is gone). Exceptions thrown before the server is built (unknown signature scheme, port in use) come out of the constructor. But with each of the library's servers, the destructor of a kernel that was never started never returns, because the context is destroyed before the server whose sockets it waits for; and an exception thrown after the server was built (by update_config, e.g. for a long address, by the debugger builder, or by configure) never comes out of the constructor.", "quantifier": "every configuration, builder, interpreter, exception", "why_tests_cant": "a test that hits it hangs; failures at every step of construction", "anchors": ["include/xeus/xkernel.hpp: order of the members of xkernel", "src/xkernel.cpp: ~xkernel, init"]}
{"id": "C84", "title": "Debugger and client exchange in strict rounds", "statement": "While the control thread (xdebugger_base) and the client's thread (xdap_tcp_client) run concurrently, every header and every request sent by the debugger is received, acknowledged or answered, and its acknowledgment or answer received, before the next one is sent, and before the processing of the frontend's request ends. For each request of the frontend, if anything is sent, its own header goes first and once. A request without a handler in the kernel is sent as it is, and the answer returned is what the client sent back for it. The client passes each request to the adapter unchanged before it does anything else.", "quantifier": "every interleaving, every request of the frontend, every byte sequence of the adapter, every subclass of debugger and client (with local handlers)", "why_tests_cant": "interleavings of two threads and arbitrary adapters", "anchors": ["src/xdebugger_base.cpp: process_request_impl, forward_message", "src/xdap_tcp_client.cpp: start_debugger, handle_header_socket, handle_control_socket"]}
{"id": "C85", "title": "Debug events are attributed to the right request across threads", "statement": "An event published by the client after the debugger has received the acknowledgment of the header of a request, or has sent a request to the adapter on its behalf, and before the next request of the frontend begins to be processed, has the header of that very request as its parent header.", "quantifier": "every interleaving, every request, every adapter, every lawful JSON library", "why_tests_cant": "the header travels over another socket than the request; races between the two show up rarely", "anchors": ["src/xdebugger_base.cpp: process_request_impl (header socket before the handler)", "src/xdap_tcp_client.cpp: handle_header_socket, forward_event"]}
{"id": "C86", "title": "Debugger and client never wait for each other", "statement": "Whenever the client waits for its sockets, either everything the debugger has sent has been acknowledged or answered (so that the debugger can go on), or the last request has been passed on to the adapter unchanged and no bytes of the adapter are left to read: a debugger that waits then waits for the adapter.", "quantifier": "every reachable state of the two threads", "why_tests_cant": "absence of deadlock under every interleaving", "anchors": ["src/xdap_tcp_client.cpp: start_debugger", "src/xdebugger_base.cpp: forward_message"]}
{"id": "C87", "title": "The client's thread survives", "statement": "If the adapter sends messages of the adapter protocol (however cut into pieces) and never more answers than it has been sent requests, and the event handler and callback of the kernel author do not fail, then no exception ever leaves start_debugger and nothing undefined happens there, whatever the frontend requests and however the two threads interleave. An adapter that answers one request twice ends the thread with an exception.", "quantifier": "every interleaving, every division of the adapter's bytes, every request of the frontend, every number of restarts", "why_tests_cant": "needs every cut of every byte stream under every interleaving with the control thread", "anchors": ["src/xdap_tcp_client.cpp: start_debugger, handle_tcp_socket, process_message_queue, forward_event", "src/xdebugger_base.cpp: process_request_impl"]}
{"id": "C88", "title": "What the client waits for in the middle of its work", "statement": "Under the same conditions, outside of its poll the client never waits for anything but the rest of a message the adapter has begun to send, or, when the pieces still unread are all empty, for the adapter to speak. In the latter case (a stream socket delivers an empty piece when the connection is made) it is deaf: header and requests of the debugger wait, and nothing else happens, until the adapter sends something of its own accord.", "quantifier": "every reachable state, every continuation", "why_tests_cant": "a race between the connection and the first request; blocking for ever", "anchors": ["src/xdap_tcp_client.cpp: handle_tcp_socket, append_tcp_message, init_tcp_socket"]}
{"id": "C89", "title": "Debugger and client come to rest with everything dealt with", "statement": "Under the same conditions, as long as neither frontend nor adapter does anything, the two threads make only finitely many steps; when they rest and the client has not ended, then it waits for the adapter to go on in the middle of a message (or after an empty piece), or all that has arrived has been read and handled, every request of the debugger has been passed on to the adapter, and every answer of the adapter sent back to the debugger, unchanged and in order.", "quantifier": "every reachable state, every infinite schedule", "why_tests_cant": "termination under every schedule", "anchors": ["src/xdap_tcp_client.cpp: start_debugger, handle_control_socket, process_message_queue", "src/xdebugger_base.cpp: forward_message"]}
{"id": "C90", "title": "Requests and answers stay in order end to end", "statement": "Under the same conditions, on each connection: the requests the adapter gets are those the debugger has sent, unchanged and in order, with at most one missing at any time; the k-th answer the debugger receives is the k-th answer (message that is not an event) in the bytes the adapter has sent, unchanged, however these were cut into pieces and whatever events come between.", "quantifier": "every reachable state, every division into pieces", "why_tests_cant": "combination of framing, queueing and two threads", "anchors": ["src/xdap_tcp_client.cpp: handle_tcp_socket, process_message_queue, handle_control_socket", "src/xdebugger_base.cpp: forward_message"]}
{"id": "C91", "title": "When the client's thread ends", "statement": "After it has been launched, the loop of the client ends only if, since the launch, the client has passed on an answer of the adapter to a disconnect request; and whenever it comes to the head of its loop after having passed on one, it ends instead of polling again. No assumption on the adapter or the kernel author's code is needed.", "quantifier": "every interleaving, every adapter, every handler, every number of restarts, every lawful JSON library", "why_tests_cant": "absence of an early end under every schedule; restart after a stop", "anchors": ["src/xdap_tcp_client.cpp: start_debugger, process_message_queue, handle_control_socket", "include/xeus/xdap_tcp_client.hpp"]}
{"id": "C92", "title": "Every debug request is answered", "statement": "Under the conditions of C87, if the kernel author's functions return, and the adapter has answered every request it has been sent, then once the two threads come to rest the control thread is free and every exchange between debugger and client (header and acknowledgment, request and answer) is complete, except when undefined behaviour has occurred in the debugger or the client has ended after an answer to disconnect. In this last case a request that the debugger still sends is never answered, whatever happens afterwards; it can happen, since m_is_started stays true when stop() throws.", "quantifier": "every reachable state at rest, every continuation", "why_tests_cant": "liveness under every schedule; a lost request shows as a frontend that waits for ever", "anchors": ["src/xdebugger_base.cpp: process_request_impl, forward_message", "src/xdap_tcp_client.cpp: start_debugger, handle_header_socket, handle_control_socket, process_message_queue"]}
{"id": "C93", "title": "Kernels with a well-behaved interpreter never fail", "statement": "Suppose the interpreter's functions end, and do nothing with the kernel but publish and look at the header of the request (they may throw std::exceptions), there is no debugger, the history manager (the in-memory one or another) returns a value or throws a std::exception whenever it is asked with ints and neither the number of entries nor the start of a range is negative, the kernel starts without comms and with an empty history, and no message leads to undefined behaviour: no message is malformed in the ways of C03, message types are texts, numbers are ints, history is not asked for with a negative number of entries or start, comms are opened only for targets that do not exist, identifiers of comms are at most 55 bytes long; and no more than 2^31-1 messages arrive. Then, whatever is sent otherwise (wrong signatures, unknown types, missing or wrong fields), in whatever order and however control and shell thread interleave, no handler fails: no exception leaves a handler, none is undefined, none waits for ever. User code throws only if the interpreter throws; waiting messages are aborted only if the interpreter reports errors; and no server stops unless a shutdown request arrived.", "quantifier": "every interpreter, every such sequence of messages, every interleaving, all servers", "why_tests_cant": "all inputs and interleavings at once", "anchors": ["src/xkernel_core.cpp: dispatch, all handlers", "src/xserver_zmq.cpp: start_impl", "src/xserver_zmq_split.cpp, src/xcontrol.cpp, src/xshell.cpp: run"]}
{"id": "C94", "title": "Every documented request is replied to exactly once", "statement": "Under the conditions of C93, if moreover the interpreter never throws and its answers can be sent, and the history manager is the in-memory one or another that answers questions with patterns free of backslashes and NUL bytes by values that can be sent: in every execution that is fair to the threads, every accepted request with documented fields that arrives on the shell or control socket is eventually replied to exactly once, with the reply type of its request, before the next message of that socket is handled; the only other replies sent meanwhile are abort replies to waiting messages, of which there are none unless the interpreter reports errors. The only exceptions are messages aborted themselves after an error, and messages not yet handled when the server is asked to stop. If no error is reported and no shutdown is requested, there are no exceptions.", "quantifier": "every interpreter, every such sequence of messages, every fair execution of the default and the split servers", "why_tests_cant": "liveness; all inputs and interleavings at once", "anchors": ["src/xkernel_core.cpp: dispatch, all handlers", "src/xserver_zmq.cpp: start_impl", "src/xserver_zmq_split.cpp, src/xcontrol.cpp, src/xshell.cpp: run"]}
{"id": "C95", "title": "The interpreters that come with the library", "statement": "The interpreters of the example kernel and of the test kernel satisfy the conditions of C93 and C94, and never report an error (the example kernel publishes one though). The whole course of each request to them is as documented: for an execute request, busy, the announcement, one call of the interpreter, the publications that belong to the code in order (example: the result 'Hello World !!' and an error, whatever the code; test: stdout for 'hello, world', stderr for 'error', the code itself as result unless it is '?'), exactly one reply whose content has exactly the listed members with the current execution count, idle; the counter and the history change as described. Likewise for completion, inspection, is_complete and kernel_info. Opening a comm for the target that the test kernel registers is undefined behaviour.", "quantifier": "every request with documented fields, every state", "why_tests_cant": "all codes, positions, states", "anchors": ["example/src/custom_interpreter.cpp", "test/test_interpreter.cpp", "test/test_interpreter.hpp"]}
{"id": "C96", "title": "The programs that come with the library", "statement": "The example program and the test programs read the file connection.json if called without arguments, and the file named by their second argument if there are at least two; with exactly one argument their behaviour is undefined. They get a kernel if that file holds a readable configuration whose signature scheme is known and whose addresses can be bound, and only if it holds a readable configuration. The kernel has the interpreter described in C95, sends in the name of the user found in the password database or else the environment, has sent nothing, has an empty history, and knows no comm target (example) or just test_target (test). In every fair execution of its server without a shutdown request, whose messages are as in C93, every request with documented fields is replied to exactly once.", "quantifier": "every list of arguments, host, configuration, every fair execution", "why_tests_cant": "composition of configuration, construction, server, kernel and interpreter over all executions", "anchors": ["example/src/main.cpp", "test/main.cpp", "test/main_control.cpp", "test/main_shell.cpp", "src/xkernel.cpp: get_user_name, xkernel::xkernel"]}
{"id": "C97", "title": "Stopped threads while events and requests overlap", "statement": "Requests are processed on the control thread while the adapter's events are handled on the client's thread. Every answer to a debugInfo request lists each thread at most once, in increasing order, and only threads about which a stopped event has begun to be handled. A thread whose stopped event has been handled is listed by every debugInfo request that begins afterwards, unless a continued event about it or a disconnect request has begun meanwhile (or a disconnect request was in hand). A thread whose continued event has been handled is not listed unless a stopped event about it has begun meanwhile. Once a disconnect request has been answered, a thread is not listed unless a stopped event about it began after the request did or was in hand then. But the set is emptied without taking its lock: the two threads can be about to change it at the same time, and an event in hand during the disconnection leaves its thread listed afterwards.", "quantifier": "every interleaving of the two threads, every history of requests and events, every debugger built on the base class", "why_tests_cant": "interleavings of single accesses; a test sees one schedule", "anchors": ["src/xdebugger_base.cpp: debug_info_request, continued_event, stopped_event, handle_event, process_request_impl, get_event_callback"]}
{"id": "C98", "title": "Malformed lengths in the adapter's stream", "statement": "Let the adapter's stream be well-formed messages followed by a header part with a Content-Length field, in any chunks, no chunk ending exactly with one of these messages. While the header part has not arrived entirely, the client waits. Once it has: if what follows Content-Length is, after white space, no number, the read fails with std::invalid_argument; if the number does not fit in 64 bits, with std::out_of_range; if it is a negative number -n, the client waits for 2^64 - n more bytes. If a chunk does end with a message, that read is not affected. The exception ends the client's thread: the well-formed messages of the same read are never passed on, and nothing more is sent. If the field is blank, the length is taken from the body of the message.", "quantifier": "every sequence of messages, every header part, every division into chunks", "why_tests_cant": "all chunkings of malformed streams; the thread ends or hangs", "anchors": ["src/xdap_tcp_client.cpp: handle_tcp_socket, append_tcp_message, start_debugger"]}
{"id": "C99", "title": "Dates made by several threads", "statement": "In the split servers the shell and the control thread make dates at the same time, and std::gmtime hands out the address of one object shared by all threads. Whatever the threads do, the fraction of a second in a date is that of the instant of the call, and each other field is that of the instant of the call or of a call of another thread that overlaps it. So a date is right if all overlapping calls fall in the same second, in particular if no call overlaps. Otherwise it can be wrong: there are executions in which a date is a month off, and in which it is no date at all (31 February).", "quantifier": "every number of threads, every interleaving of single accesses, every sequence of instants", "why_tests_cant": "a race at the change of a second; a test sees one schedule", "anchors": ["src/xmessage.cpp: iso8601_now", "src/xserver_zmq_split.cpp: start_impl"]}
{"id": "C100", "title": "The two threads of the split servers touch different parts of the kernel", "statement": "The shell thread and the control thread use the same kernel core, interpreter, history and comm manager without a lock. Suppose the messages handled on the control channel are such that their handlers keep to the interpreter's own state: shutdown, interrupt, debug, kernel info, complete, inspect and is_complete requests whose user code makes no calls to the kernel (the debugger may send requests to the shell thread), messages of unknown type, and messages that are rejected. Then the control thread touches nothing of the kernel but that state and its own parent request: it neither reads nor changes the execution counter, the history, the comms, the shell thread's parent request, a pending input request, or what waits on the shell and stdin sockets. If no shutdown or interrupt request is handled on the shell channel, the shell thread, whatever its messages and the interpreter do, does not touch the control thread's parent request. So at any time at most one of the accesses the two threads make next touches a given part, except the interpreter's own state. An execute request sent to the control channel is not safe: it and one on the shell channel may be announced with the same number, another number never being used.", "quantifier": "every interpreter, every sequence of messages, every interleaving of single accesses", "why_tests_cant": "absence of races over all schedules and all user code", "anchors": ["src/xkernel_core.cpp: dispatch, all handlers", "src/xserver_zmq_split.cpp, src/xcontrol.cpp, src/xshell.cpp: run", "src/xzmq_messenger.cpp: send_to_shell_impl"]}
{"id": "C101", "title": "The unit tests of the library", "statement": "The tests of the history manager succeed with every standard library (whatever its std::regex does beyond the standard): what a search finds does not depend on it. The test of the user name fails just if neither the password database nor the environment knows the user (or they are called 'unspecified user'). The test of the port search succeeds just if one of the first hundred drawn ports can be bound. The test of the temporary directory succeeds just if no variable is set, or the first one that is set is not empty, is not the root and does not end with a backslash, two separators, or a backslash and a separator. The test of create_directory succeeds if the temporary directory exists, can be written to, and contains nothing called intermediate.", "quantifier": "every host, every conforming regex library", "why_tests_cant": "tests run on one host; this says on which hosts they pass", "anchors": ["test/test_xin_memory_history_manager.cpp", "test/test_unit_kernel.cpp"]}
{"id": "C102", "title": "What a running server sends", "statement": "In every execution of the default server, what its handlers did up to any moment is, in this order, one block (busy, anything but status notifications, idle, both with the header of the message as parent) for each accepted message it received, nothing for each refused one, and possibly the beginning of the block of the message in hand; while no message is being handled there is no such beginning. For the split servers the same holds for each of the two threads and the messages it received, whatever the other thread does, including internal requests of the debugger. What clients get from the iopub socket, as long as nothing was dropped, is the publications of a first part of this, so that status notifications alternate busy, idle, about the same message; with the split servers this holds for the publications through either socket, but not for all of them together.", "quantifier": "all executions of the servers, all interpreters, all messages, all interleavings", "why_tests_cant": "needs every interleaving of threads, arrivals and relaying", "anchors": ["src/xkernel_core.cpp:100-160", "src/xserver_zmq.cpp:97-160", "src/xpublisher.cpp", "src/xshell.cpp", "src/xcontrol.cpp"]}
{"id": "C103", "title": "The history of a running server", "statement": "While the default server is handling no message, its history is what it was at the start followed by one entry for each execute request that is well formed, not silent, not marked as not to be stored, and was replied to, in the order in which the requests were handled; nothing else is ever added. The line number of an entry is the field execution_count of the request (1 if absent), not the number of the execution.", "quantifier": "all executions, interpreters and messages", "why_tests_cant": "needs all sequences of messages and interleavings of arrivals", "anchors": ["src/xkernel_core.cpp:223-286", "src/xin_memory_history_manager.cpp:35-41"]}
{"id": "C104", "title": "The history of the split servers", "statement": "In every execution of the split servers the history is, at any time, what it was at the start followed by the entries written by the two threads, each thread's in its own order. The entries of a thread are one for each execute request it handled that is well formed, not silent, not marked as not to be stored, and was replied to, in the order in which it handled them, and possibly one for the request it is handling, if that one is to be stored and has been replied to already; a thread that is between two messages has written exactly the former. The order of entries of different threads may differ from that of the replies.", "quantifier": "all executions of the split servers, all interpreters, all messages, all interleavings", "why_tests_cant": "needs every interleaving of the two threads", "anchors": ["src/xkernel_core.cpp:223-286", "src/xin_memory_history_manager.cpp:35-41", "src/xserver_shell_main.cpp", "src/xserver_control_main.cpp"]}
{"id": "C105", "title": "The peers of the adapter's stream socket", "statement": "As a server the debug adapter client takes the sender of the first piece it receives for the adapter and drops the bytes of that piece; as a TCP client it receives nothing at that point and uses the identity of its own connection. Everything it sends goes to that peer, in order. Reading the parts that the stream socket delivers is reading the pieces of bytes they contain, in the order of arrival and whoever sent them: it never stops between the two parts of a piece, and as long as other peers only connect and disconnect, exactly the messages of the adapter are delivered. The client does not check who sent a piece: the message of any other peer is taken as one of the adapter's, can answer a request of the debugger and end the client, and can spoil a message of the adapter; a client that is started a second time as a server can take the adapter of the first run, which is gone, for the new one.", "quantifier": "all sequences of pieces from any peers, all message lists", "why_tests_cant": "arrival orders and peers cannot be controlled in a test", "anchors": ["src/xdap_tcp_client.cpp:179-201", "src/xdap_tcp_client.cpp:255-322"]}
{"id": "C106", "title": "Sessions with the test kernel", "statement": "In every execution of the default server with the test kernel, in which it handled only messages of the shell channel that are refused or are execute, complete, inspect, is_complete or kernel_info requests with documented fields, and while it is not handling one, everything that was sent, the number of executions and the history are a function of the messages as documented: per request busy, (execute_input with the number of the execution,) the outputs that belong to the code, one reply to the sender with the expected content, idle, all with the header of the request as parent; executions are numbered 1, 2, ... not counting silent ones. In particular the expectations of the integration tests hold (first output on stderr for 'error', on stdout for 'hello, world', the code as result, the completions, the indentation).", "quantifier": "all executions, all sequences of such requests", "why_tests_cant": "needs all sequences of requests and interleavings with arrivals", "anchors": ["test/test_interpreter.cpp", "test/test_kernel.py", "src/xkernel_core.cpp", "src/xserver_zmq.cpp"]}
{"id": "C107", "title": "Split servers whose threads take turns", "statement": "In every execution of a split server in which at no time both threads are handling a message and no message is received after a stop was requested, and while no thread is handling one, the kernel is in a state reached by handling the messages one after the other, whichever thread handled them, exactly as in the default server: the replies, the numbers of the executions, the transcript and the history are those of the default server for the same messages; internal requests of the debugger count as part of the message of the control thread. This is so whenever clients use only one of the two channels and no stop is requested. In particular clients of the test kernel see the same session with the split servers as with the default one, whatever the threads do meanwhile. Without the condition it is false: two execute requests handled at the same time lead to a state that no order of the messages leads to.", "quantifier": "all executions of the split servers, all interpreters, all messages, all interleavings", "why_tests_cant": "needs every interleaving of the two threads, arrivals and internal requests", "anchors": ["src/xserver_zmq_split.cpp", "src/xshell.cpp:54-90", "src/xcontrol.cpp:55-68", "src/xkernel_core.cpp", "test/main_control.cpp", "test/main_shell.cpp"]}
{"id": "C108", "title": "Refused messages have no effect on a running server", "statement": "While the default server, or a split server whose threads take turns, is handling no message, its kernel is in the state it would be in if the messages that are refused (wrong signature, no valid JSON and so on) had never arrived on the shell and control sockets: handling the other messages in the same order leads to the same state, everything sent included, in which the other messages are waiting. For the handler of any message this holds whatever its outcome: refused messages waiting on the shell socket make no difference, also when it aborts the queue.", "quantifier": "all executions, all interpreters, all messages on the shell and control sockets", "why_tests_cant": "a test cannot try all places at which refused messages can arrive", "anchors": ["src/xkernel_core.cpp:200-247", "src/xkernel_core.cpp:444-468", "src/xserver_zmq.cpp:97-148"]}
{"id": "C109", "title": "Temporary directories are decided once; Windows", "statement": "get_temp_directory_path returns for the rest of the process what its first call found, whatever happens to the environment afterwards. On Windows: the temporary directory is the one of the system without its last backslash and with slashes for backslashes, empty if there is none, and undefined if its name is too long; create_directory makes the same directories as on other systems, but reports success exactly if the directory was missing, was made and its path does not end with a separator, so that making a directory twice is reported as a failure (and as a success elsewhere), and making the directory of get_tmp_prefix always is; the user name is the one the system gives, undefined if it gives none.", "quantifier": "every sequence of environments, file system and path", "why_tests_cant": "file systems and environments are unbounded; the tests run on one system", "anchors": ["src/xsystem.cpp:38-89", "src/xkernel.cpp:64-68"]}
{"id": "C110", "title": "What a client can conclude from what names its request", "statement": "As long as no publication was dropped, once a client has been passed the idle notification about a header, an accepted message with this header has been handled completely, everything done for it comes before and all its publications have been passed on; for the default server and for each socket of a split server, whatever the other thread does. In the default server, what is published names messages as follows: status notifications the message being handled, anything else through the shell socket the latest accepted message of the shell channel, and shutdown and interrupt notifications the latest one of the control channel. So (also for split servers whose threads take turns) gathering the publications that name the header of a request gives precisely what was published for its channel while it was handled, in order, provided no other accepted message has its header and no control request comes before the next accepted shell request. Without the latter it is false: the output of an execute request sent to the control channel names the latest shell request, after its idle.", "quantifier": "all executions, all interpreters, all messages", "why_tests_cant": "needs all interleavings of the threads and all sequences of messages", "anchors": ["src/xkernel_core.cpp:147-165", "src/xkernel_core.cpp:200-247", "src/xkernel_core.cpp:481-499", "src/xpublisher.cpp"]}
{"id": "C111", "title": "Debug requests through the kernel to xdebugger_base and back", "statement": "With a kernel whose debugger derives from xdebugger_base: an accepted debug request, on any channel and in any state, calls process_request once, with its header and content; the JSON value returned is sent back unchanged as the content of the one debug_reply (none if it cannot be printed, or if a std::exception is thrown), between busy and idle, and nothing else of the kernel changes; other messages leave the debugger as it is. Over any sequence of messages and events of the adapter the debugger is called once for each accepted debug request and once for each event, in their order. At any point a debugInfo request, through the kernel, is answered with a reply that can be printed and tells whether the debugger runs, the breakpoints of the last setBreakpoints request for each source since the last disconnection, and the threads whose last event says that they are stopped. This is what the default server does, and the split servers while their threads take turns, in particular as long as clients use the control channel only.", "quantifier": "all interpreters, all debuggers derived from xdebugger_base that keep to its interface, all sequences of messages and events, all states", "why_tests_cant": "sequences of requests and events are unbounded; the tests run one session with one debugger", "anchors": ["src/xdebugger.cpp:31-35", "src/xkernel_core.cpp:375-384", "src/xdebugger_base.cpp", "src/xdap_tcp_client.cpp:53-55"]}
{"id": "C112", "title": "Conformance with the messaging protocol", "statement": "All messages a kernel with the in-memory history manager sends, whatever it is asked, in any state, by the default server and by the split servers at any time, have a type, and the content the Jupyter messaging protocol 5.3 requires for this type (the members that have to be there, and what kinds of values they are), or are one of the following: notifications of shutdown and interrupt (types the protocol does not know) and their replies, which have no status; replies to aborted requests, which say error without a description instead of aborted; requests for input, in which the member password is called pwd; history replies with entries (texts in the place of numbers), about a wrong range (no evalue and traceback) or for an unknown kind of access (null); debug replies. None of these is what the protocol requires, and each occurs. For messages whose contents the kernel itself makes this holds for all interpreters; for the others, if the interpreter publishes and returns what the protocol requires. The interpreters of the example and test kernels do not: their kernel_info replies have no status, their completions no metadata, the inspections of the example neither data nor metadata, the results of the test kernel no metadata, and its is_complete replies have the code as status; all other messages of these kernels are as described.", "quantifier": "all interpreters, all sequences of messages, all executions of the servers", "why_tests_cant": "the contents depend on unbounded requests, states and interpreters; tests look at a few replies", "anchors": ["src/xkernel_core.cpp", "src/xinterpreter.cpp", "src/xinput.cpp", "src/xhistory_manager.cpp", "src/xcomm.cpp", "docs/source/kernel_implementation.rst"]}
{"id": "C113", "title": "All that the bundled kernels do, for all messages", "statement": "For the example program and the test programs (with two threads as long as these take turns), whatever is sent to them on both channels: while no message is being handled, everything the kernel did (its notifications, output, replies and calls of the interpreter, and the stop), the number of executions, the history and the headers of the latest messages are exactly as specified for the messages handled, one after the other. The specification covers each message: refused ones, requests of all types with any content, on either channel, comm messages, debug requests, unknown types; it says for instance what history requests get in any state, that execute requests on the control channel publish with the latest header of the shell channel, that no comm is ever open, and that nothing is handled after a shutdown. The number of executions, the history and the latest headers are functions of the messages handled, the same for all these kernels.", "quantifier": "all command lines, hosts and messages, all executions", "why_tests_cant": "the sequences of messages are unbounded; the tests send one of each kind to one kernel", "anchors": ["src/xkernel_core.cpp", "src/xin_memory_history_manager.cpp", "src/xcomm.cpp", "example/src/main.cpp", "example/src/custom_interpreter.cpp", "test/main.cpp", "test/test_interpreter.cpp", "src/xserver_zmq.cpp:97-148"]}
{"id": "C114", "title": "History managers of kernel authors", "statement": "A kernel constructed with a history manager of its author's uses this one, otherwise an in-memory one; in either case nothing is stored in it by the constructor. While the default server (or a split one whose threads take turns) is not handling a message, whatever the interpreter and the manager: each history request handled so far puts at most one question, to one of the manager's functions for tail, range and search, with the fields of the request and the documented defaults; it was answered, between busy and idle, by exactly what this function returns when exactly the execute requests handled before that were to be stored and were replied to have been given to store_inputs, in this order, with session 0, their line number and code; it got no reply if the function throws or its answer cannot be printed, or a field is not of the documented type, and null for another access type. Nothing else is ever stored. What the interpreter asks the manager itself is answered likewise.", "quantifier": "all kernels, interpreters, history managers, messages and executions", "why_tests_cant": "managers are supplied by kernel authors; sequences of messages are unbounded", "anchors": ["include/xeus/xhistory_manager.hpp", "src/xhistory_manager.cpp", "src/xkernel.cpp:144-162", "src/xkernel_core.cpp:246-317", "src/xinterpreter.cpp:208-216"]}
