{
 "claims": [
  {
   "property": "C01",
   "status": "proved",
   "theorems": [
    "Xeus.C01_roundtrip",
    "Xeus.C01_delimiter_identity"
   ],
   "note": "JSON library and MAC are parameters with laws; a concrete lawful codec is constructed (stdCodec_lawful)."
  },
  {
   "property": "C02",
   "status": "proved",
   "theorems": [
    "Xeus.C02_pub_roundtrip"
   ],
   "note": ""
  },
  {
   "property": "C03",
   "status": "proved",
   "theorems": [
    "Xeus.C03_accepted_iff",
    "Xeus.C03_undefined_iff",
    "Xeus.C03_refused_iff",
    "Xeus.C03_exactly_one"
   ],
   "note": "Classification is exact, including the undefined behaviour of the code."
  },
  {
   "property": "C04",
   "status": "proved",
   "theorems": [
    "Xeus.C04_signature_iff",
    "Xeus.C04_altered_signature",
    "Xeus.C04_altered_frames",
    "Xeus.C04_trailing_bytes_accepted"
   ],
   "note": "Trailing bytes after a good signature are accepted (deviation, stated)."
  },
  {
   "property": "C05",
   "status": "proved",
   "theorems": [
    "Xeus.C05_own_signature",
    "Xeus.C05_none",
    "Xeus.C05_lengths"
   ],
   "note": ""
  },
  {
   "property": "C06",
   "status": "proved",
   "theorems": [
    "Xeus.C06_unprotected",
    "Xeus.C06_boundaries"
   ],
   "note": ""
  },
  {
   "property": "C07",
   "status": "proved",
   "theorems": [
    "Xeus.C07_thread_safe",
    "Xeus.C07_mutual_exclusion",
    "Xeus.C07_progress",
    "Xeus.C07_unlocked_race"
   ],
   "note": "Sequentially consistent interleaving of HMAC/lock calls."
  },
  {
   "property": "C08",
   "status": "proved",
   "theorems": [
    "Xeus.C08_hex_faithful",
    "Xeus.C08_guid"
   ],
   "note": "The system UUID source is a parameter (16 bytes)."
  },
  {
   "property": "C09",
   "status": "proved",
   "theorems": [
    "Xeus.C09_scheme_selection"
   ],
   "note": "OpenSSL >= 1.1.0 assumed (blake2 schemes present)."
  },
  {
   "property": "C10",
   "status": "proved",
   "theorems": [
    "Xeus.C10_utf8_validity",
    "Xeus.C10_excluded"
   ],
   "note": ""
  },
  {
   "property": "C100",
   "status": "proved",
   "theorems": [
    "Xeus.C100_control",
    "Xeus.C100_shell",
    "Xeus.C100_apart",
    "Xeus.C100_kept",
    "Xeus.C100_count_witness"
   ],
   "note": "At the level of Duo: one step per access to the kernel's state. GUIDs, clocks and logging are not among the parts (the clock: C99)."
  },
  {
   "property": "C101",
   "status": "proved",
   "theorems": [
    "Xeus.Tests.C101_same_search",
    "Xeus.Tests.C101_history",
    "Xeus.Tests.C101_user",
    "Xeus.Tests.C101_port",
    "Xeus.Tests.C101_temp",
    "Xeus.Tests.C101_directory"
   ],
   "note": "The tests of the process id and of the constant hash seed are trivial and not modelled."
  },
  {
   "property": "C102",
   "status": "proved",
   "theorems": [
    "Xeus.C102_transcript",
    "Xeus.C102_progress",
    "Xeus.C102_client",
    "Xeus.C102_thread",
    "Xeus.C102_socket",
    "Xeus.C102_mixed_witness"
   ],
   "note": "The publisher of the model passes messages on in order and may drop publications at the high water mark; what subscribers do not subscribe to is not modelled."
  },
  {
   "property": "C103",
   "status": "proved",
   "theorems": [
    "Xeus.C103_history",
    "Xeus.C103_line_witness"
   ],
   "note": ""
  },
  {
   "property": "C104",
   "status": "proved",
   "theorems": [
    "Xeus.C104_history",
    "Xeus.C104_order_witness"
   ],
   "note": "One step per access to the history; that two threads may access the list at the same time (C100: a data race in C++) is not an outcome of this model."
  },
  {
   "property": "C105",
   "status": "proved",
   "theorems": [
    "Xeus.C105_server",
    "Xeus.C105_client",
    "Xeus.C105_sent",
    "Xeus.C105_read",
    "Xeus.C105_mixed",
    "Xeus.C105_adapter",
    "Xeus.C105_stranger_witness",
    "Xeus.C105_ended_witness",
    "Xeus.C105_spoilt_witness",
    "Xeus.C105_restart_witness"
   ],
   "note": "That a stream socket delivers empty pieces for connections made and ended is libzmq's documented behaviour, an assumption."
  },
  {
   "property": "C106",
   "status": "proved",
   "theorems": [
    "Xeus.C106_session",
    "Xeus.C106_first_output"
   ],
   "note": ""
  },
  {
   "property": "C107",
   "status": "proved",
   "theorems": [
    "Xeus.C107_serial",
    "Xeus.C107_account",
    "Xeus.C107_count",
    "Xeus.C107_transcript",
    "Xeus.C107_history",
    "Xeus.C107_one_channel",
    "Xeus.C107_session",
    "Xeus.C107_overlap_witness"
   ],
   "note": ""
  },
  {
   "property": "C108",
   "status": "proved",
   "theorems": [
    "Xeus.C108_default",
    "Xeus.C108_split",
    "Xeus.C108_handler"
   ],
   "note": ""
  },
  {
   "property": "C109",
   "status": "proved",
   "theorems": [
    "Xeus.C109_once",
    "Xeus.C109_once_env",
    "Xeus.C109_temp",
    "Xeus.C109_temp_no_backslash",
    "Xeus.C109_create",
    "Xeus.C109_same",
    "Xeus.C109_prefix",
    "Xeus.C109_twice",
    "Xeus.C109_user"
   ],
   "note": "Paths without drives and with slashes only; what GetTempPathA, CreateDirectoryA and GetUserName do is taken from their documentation."
  },
  {
   "property": "C11",
   "status": "proved",
   "theorems": [
    "Xeus.C11_refused"
   ],
   "note": ""
  },
  {
   "property": "C110",
   "status": "proved",
   "theorems": [
    "Xeus.C110_idle",
    "Xeus.C110_split_idle",
    "Xeus.C110_credited",
    "Xeus.C110_gather",
    "Xeus.C110_split_gather",
    "Xeus.C110_stray_witness"
   ],
   "note": "C110_credited is about the default server, C110_split_gather about split servers whose threads take turns; otherwise what a split server publishes through the shell socket may be credited to another request by the other thread (C102, C107)."
  },
  {
   "property": "C111",
   "status": "proved",
   "theorems": [
    "Xeus.C111_request",
    "Xeus.C111_other",
    "Xeus.C111_session",
    "Xeus.C111_info",
    "Xeus.C111_server",
    "Xeus.C111_split",
    "Xeus.C111_control"
   ],
   "note": "The interpreter and the debugger have separate states. Events of the client's thread come between messages; in C111_server, C111_split and C111_control there are none (for events during a request see C97)."
  },
  {
   "property": "C112",
   "status": "proved",
   "theorems": [
    "Xeus.C112_sharp",
    "Xeus.C112_life",
    "Xeus.C112_own",
    "Xeus.C112_server",
    "Xeus.C112_split",
    "Xeus.C112_witness",
    "Xeus.C112_info_witness",
    "Xeus.C112_demo",
    "Xeus.C112_test",
    "Xeus.C112_bundled_refuted"
   ],
   "note": "The requirements of the protocol are Protocol.table, written from the jupyter_client documentation of version 5.3; that text is not part of the repository. What goes to clients beyond the contents (identities, headers, parents) is C02, C26 and C27."
  },
  {
   "property": "C113",
   "status": "proved",
   "theorems": [
    "Xeus.C113_demo",
    "Xeus.C113_test",
    "Xeus.C113_test_split",
    "Xeus.C113_determined"
   ],
   "note": "Undefined behaviour ends an execution of the model: a comm_open for the test kernel's target (C95_test_comm), comm identifiers of more than 55 bytes and negative numbers in history requests are therefore among no messages handled completely. Which entries a search with a pattern containing backslashes or NUL bytes finds is not specified. Standard output of the test kernel is not modelled."
  },
  {
   "property": "C114",
   "status": "proved",
   "theorems": [
    "Xeus.C114_manager",
    "Xeus.C114_own",
    "Xeus.C114_one",
    "Xeus.C114_server",
    "Xeus.C114_split",
    "Xeus.C45_tail",
    "Xeus.C45_range",
    "Xeus.C45_search"
   ],
   "note": "The answers of a manager are functions of the inputs stored before and of the arguments (its query functions are const); store_inputs_impl returns; no exception but std::exception is thrown."
  },
  {
   "property": "C12",
   "status": "proved",
   "theorems": [
    "Xeus.C12_bracket"
   ],
   "note": ""
  },
  {
   "property": "C13",
   "status": "proved",
   "theorems": [
    "Xeus.C13_replies"
   ],
   "note": ""
  },
  {
   "property": "C14",
   "status": "proved",
   "theorems": [
    "Xeus.C14_at_most_one",
    "Xeus.C14_exactly_one"
   ],
   "note": "An answer of user code that cannot be printed gets no reply (strict error handler); see Served."
  },
  {
   "property": "C15",
   "status": "proved",
   "theorems": [
    "Xeus.C15_unknown"
   ],
   "note": ""
  },
  {
   "property": "C16",
   "status": "proved",
   "theorems": [
    "Xeus.C16_escapes_iff",
    "Xeus.C16_absorbed"
   ],
   "note": ""
  },
  {
   "property": "C17",
   "status": "proved",
   "theorems": [
    "Xeus.C17_counter",
    "Xeus.C17_from_start",
    "Xeus.C17_step",
    "Xeus.C17_tally_exists",
    "Xeus.C17_server"
   ],
   "note": "A counter overflow is undefined behaviour in C++ and in the model; C17_counter speaks of the sessions that end normally, C17_step of single messages with any outcome."
  },
  {
   "property": "C18",
   "status": "proved",
   "theorems": [
    "Xeus.C18_shape",
    "Xeus.C18_announced",
    "Xeus.C18_silent"
   ],
   "note": ""
  },
  {
   "property": "C19",
   "status": "proved",
   "theorems": [
    "Xeus.C19_execute",
    "Xeus.C19_other",
    "Xeus.C19_append_only"
   ],
   "note": ""
  },
  {
   "property": "C20",
   "status": "proved",
   "theorems": [
    "Xeus.C20_abort",
    "Xeus.C20_otherwise",
    "Xeus.C20_stuck"
   ],
   "note": "C20_abort for queues in which every well-formed message has a type with an underscore (printable abort name); C20_stuck says what happens otherwise."
  },
  {
   "property": "C21",
   "status": "proved",
   "theorems": [
    "Xeus.C21_code",
    "Xeus.C21_unique",
    "Xeus.C21_exists",
    "Xeus.C21_request",
    "Xeus.C21_no_underscore"
   ],
   "note": ""
  },
  {
   "property": "C22",
   "status": "proved",
   "theorems": [
    "Xeus.C22_shutdown",
    "Xeus.C22_hook_once",
    "Xeus.C22_only",
    "Xeus.C22_bad"
   ],
   "note": ""
  },
  {
   "property": "C23",
   "status": "proved",
   "theorems": [
    "Xeus.C23_interrupt"
   ],
   "note": ""
  },
  {
   "property": "C24",
   "status": "proved",
   "theorems": [
    "Xeus.C24_execute",
    "Xeus.C24_complete",
    "Xeus.C24_inspect",
    "Xeus.C24_is_complete",
    "Xeus.C24_kernel_info",
    "Xeus.C24_debug",
    "Xeus.C24_bad",
    "Xeus.C24_undefined"
   ],
   "note": "Doubles in the place of integers that do not fit are undefined behaviour (C24_undefined)."
  },
  {
   "property": "C25",
   "status": "proved",
   "theorems": [
    "Xeus.C25_comm_info",
    "Xeus.C25_bad"
   ],
   "note": "For live registries (C34 shows when the registry is live)."
  },
  {
   "property": "C26",
   "status": "proved",
   "theorems": [
    "Xeus.C26_form",
    "Xeus.C26_distinct",
    "Xeus.C26_header"
   ],
   "note": "C26_form and C26_distinct speak of the whole life of a kernel from its start message on, however it ends."
  },
  {
   "property": "C27",
   "status": "proved",
   "theorems": [
    "Xeus.C27_attribution"
   ],
   "note": ""
  },
  {
   "property": "C28",
   "status": "proved",
   "theorems": [
    "Xeus.C28_answer",
    "Xeus.C28_waits",
    "Xeus.C28_handler_remains"
   ],
   "note": "If the strict error handler cannot print the prompt, input_request throws and the handler stays registered (C28_handler_remains)."
  },
  {
   "property": "C29",
   "status": "proved",
   "theorems": [
    "Xeus.C29_rejected",
    "Xeus.C29_ill_typed",
    "Xeus.C29_absent",
    "Xeus.C29_undefined"
   ],
   "note": "A multipart whose decoding is undefined behaviour is undefined here too (C29_undefined)."
  },
  {
   "property": "C30",
   "status": "proved",
   "theorems": [
    "Xeus.C30_trivial",
    "Xeus.C30_zmq",
    "Xeus.C30_not_stop",
    "Xeus.C30_goes_on"
   ],
   "note": ""
  },
  {
   "property": "C31",
   "status": "proved",
   "theorems": [
    "Xeus.C31_transcript",
    "Xeus.C31_broken"
   ],
   "note": "C31_broken says what is left when a session breaks off."
  },
  {
   "property": "C32",
   "status": "proved",
   "theorems": [
    "Xeus.C32_meant",
    "Xeus.C32_reply",
    "Xeus.C32_block",
    "Xeus.C32_in_hand"
   ],
   "note": "Sequentially consistent interleavings; one step is one access to the shared state."
  },
  {
   "property": "C33",
   "status": "proved",
   "theorems": [
    "Xeus.C33_start",
    "Xeus.C33_first",
    "Xeus.C33_unconfigured",
    "Xeus.C33_unprintable"
   ],
   "note": "With the strict handler a user name that is not UTF-8 keeps the kernel from starting (C33_unprintable)."
  },
  {
   "property": "C34",
   "status": "proved",
   "theorems": [
    "Xeus.C34_registry",
    "Xeus.C34_comms",
    "Xeus.C34_live",
    "Xeus.C34_defined",
    "Xeus.C34_kernel"
   ],
   "note": "C34_kernel: every life of a kernel is such a sequence of operations."
  },
  {
   "property": "C35",
   "status": "proved",
   "theorems": [
    "Xeus.C35_open",
    "Xeus.C35_unregistered",
    "Xeus.C35_bad",
    "Xeus.C35_undefined"
   ],
   "note": "Missing members are undefined behaviour (C35_undefined)."
  },
  {
   "property": "C36",
   "status": "proved",
   "theorems": [
    "Xeus.C36_msg",
    "Xeus.C36_unknown",
    "Xeus.C36_undefined"
   ],
   "note": "Missing members are undefined behaviour (C36_undefined)."
  },
  {
   "property": "C37",
   "status": "proved",
   "theorems": [
    "Xeus.C37_close",
    "Xeus.C37_twice"
   ],
   "note": ""
  },
  {
   "property": "C38",
   "status": "proved",
   "theorems": [
    "Xeus.C38_fresh",
    "Xeus.C38_move",
    "Xeus.C38_copy",
    "Xeus.C38_move_assign",
    "Xeus.C38_copy_assign",
    "Xeus.C38_undefined"
   ],
   "note": ""
  },
  {
   "property": "C39",
   "status": "proved",
   "theorems": [
    "Xeus.C39_send",
    "Xeus.C39_undefined"
   ],
   "note": "With the strict error handler data that cannot be printed are not sent and an exception is thrown."
  },
  {
   "property": "C40",
   "status": "proved",
   "theorems": [
    "Xeus.C40_uninitialised",
    "Xeus.C40_assign_moved_from",
    "Xeus.C40_swap_witness",
    "Xeus.C40_self_move",
    "Xeus.C40_unregistered_target",
    "Xeus.C40_unknown_target",
    "Xeus.C40_unknown_target_open",
    "Xeus.C40_reopen_witness",
    "Xeus.C40_callback_returns"
   ],
   "note": ""
  },
  {
   "property": "C41",
   "status": "proved",
   "theorems": [
    "Xeus.C41_tail",
    "Xeus.C41_stored"
   ],
   "note": "History size at most INT_MAX."
  },
  {
   "property": "C42",
   "status": "proved",
   "theorems": [
    "Xeus.C42_range",
    "Xeus.C42_range_error"
   ],
   "note": "History size at most INT_MAX."
  },
  {
   "property": "C43",
   "status": "proved",
   "theorems": [
    "Xeus.C43_search",
    "Xeus.C43_collapse_unique",
    "Xeus.C43_search_any"
   ],
   "note": "std::regex is a parameter with laws; a concrete lawful instance is constructed (stdRegex_lawful)."
  },
  {
   "property": "C44",
   "status": "proved",
   "theorems": [
    "Xeus.C44_glob",
    "Xeus.C44_trailing_backslash"
   ],
   "note": ""
  },
  {
   "property": "C45",
   "status": "proved",
   "theorems": [
    "Xeus.C45_tail",
    "Xeus.C45_search",
    "Xeus.C45_range",
    "Xeus.C45_other",
    "Xeus.C45_refused",
    "Xeus.C45_flags"
   ],
   "note": ""
  },
  {
   "property": "C46",
   "status": "proved",
   "theorems": [
    "Xeus.C46_tail_ub",
    "Xeus.C46_range_ub",
    "Xeus.C46_search_ub",
    "Xeus.C46_request_ub",
    "Xeus.C46_request_wild"
   ],
   "note": "Exact conditions of the undefined behaviour."
  },
  {
   "property": "C47",
   "status": "proved",
   "theorems": [
    "Xeus.C47_kernel",
    "Xeus.C47_order",
    "Xeus.C47_priority",
    "Xeus.C47_stop"
   ],
   "note": ""
  },
  {
   "property": "C48",
   "status": "proved",
   "theorems": [
    "Xeus.C48_order",
    "Xeus.C48_prefix",
    "Xeus.C48_loss_witness",
    "Xeus.C48_split",
    "Xeus.C48_split_sources"
   ],
   "note": ""
  },
  {
   "property": "C49",
   "status": "proved",
   "theorems": [
    "Xeus.C49_echo",
    "Xeus.C49_given",
    "Xeus.C49_progress",
    "Xeus.C49_split"
   ],
   "note": ""
  },
  {
   "property": "C50",
   "status": "proved",
   "theorems": [
    "Xeus.C50_exit",
    "Xeus.C50_no_deadlock",
    "Xeus.C50_terminates"
   ],
   "note": "Fairness: a thread that can go on for ever at some time does."
  },
  {
   "property": "C51",
   "status": "proved",
   "theorems": [
    "Xeus.C51_kernel",
    "Xeus.C51_order",
    "Xeus.C51_control_stop",
    "Xeus.C51_shell_stop",
    "Xeus.C51_shell_waits",
    "Xeus.C51_waiting_runs",
    "Xeus.C51_shell_waits_witness",
    "Xeus.C51_lost_witness",
    "Xeus.C51_shell_after",
    "Xeus.C51_shell_after_sharp",
    "Xeus.C51_exit",
    "Xeus.C51_terminates",
    "Xeus.C51_stuck",
    "Xeus.C51_stuck_witness"
   ],
   "note": "Internal requests of the debugger are performed by the control thread in the model."
  },
  {
   "property": "C52",
   "status": "proved",
   "theorems": [
    "Xeus.C52_socket",
    "Xeus.C52_shell_witness",
    "Xeus.C52_control_witness"
   ],
   "note": ""
  },
  {
   "property": "C53",
   "status": "proved",
   "theorems": [
    "Xeus.C53_read",
    "Xeus.C53_blocks",
    "Xeus.C53_all",
    "Xeus.C53_prefix",
    "Xeus.C53_withheld_witness"
   ],
   "note": "any messages with a Content-Length field, any chunking; complete messages are withheld while the next one is partial (witness)"
  },
  {
   "property": "C54",
   "status": "proved",
   "theorems": [
    "Xeus.C54_framed",
    "Xeus.C54_roundtrip",
    "Xeus.C54_unprintable"
   ],
   "note": ""
  },
  {
   "property": "C55",
   "status": "proved",
   "theorems": [
    "Xeus.C55_queued",
    "Xeus.C55_read",
    "Xeus.C55_single",
    "Xeus.C55_returns",
    "Xeus.C55_account",
    "Xeus.C55_lost_witness"
   ],
   "note": "earlier matches of the same batch are dropped (stated exactly, with a witness)"
  },
  {
   "property": "C56",
   "status": "proved",
   "theorems": [
    "Xeus.C56_process",
    "Xeus.C56_completes",
    "Xeus.C56_ends",
    "Xeus.C56_by_type",
    "Xeus.C56_life",
    "Xeus.C56_order",
    "Xeus.C56_unsolicited",
    "Xeus.C56_greedy_loses_witness",
    "Xeus.C56_greedy_undefined_witness"
   ],
   "note": "exactly once for handlers that do not wait, whole runs included; handlers that wait for the very event they handle break it (witnesses)"
  },
  {
   "property": "C57",
   "status": "proved",
   "theorems": [
    "Xeus.C57_init",
    "Xeus.C57_overflow",
    "Xeus.C57_attach_request",
    "Xeus.C57_other_request",
    "Xeus.C57_plain_request",
    "Xeus.C57_once",
    "Xeus.C57_stale_witness"
   ],
   "note": "including the overflow of seq + 1 (undefined) and the stale readiness of the stream socket"
  },
  {
   "property": "C58",
   "status": "proved",
   "theorems": [
    "Xeus.C58_attributed",
    "Xeus.C58_forward",
    "Xeus.C58_readable",
    "Xeus.C58_bad_parent"
   ],
   "note": "invariant over all runs of the client"
  },
  {
   "property": "C59",
   "status": "proved",
   "theorems": [
    "Xeus.Dbg.C59_refused",
    "Xeus.Dbg.C59_traffic",
    "Xeus.Dbg.C59_report",
    "Xeus.Dbg.C59_start_fails"
   ],
   "note": "C59_traffic and C59_report speak of all histories; the subclass's handlers must not use the sockets or the flag themselves."
  },
  {
   "property": "C60",
   "status": "proved",
   "theorems": [
    "Xeus.Dbg.C60_breakpoints"
   ],
   "note": "all histories of requests and events"
  },
  {
   "property": "C61",
   "status": "proved",
   "theorems": [
    "Xeus.Dbg.C61_threads"
   ],
   "note": "all histories of requests and events, taken one after another; for events handled while requests are processed see C97"
  },
  {
   "property": "C62",
   "status": "proved",
   "theorems": [
    "Xeus.Dbg.C62_reset",
    "Xeus.Dbg.C62_report",
    "Xeus.Dbg.C62_restart",
    "Xeus.Dbg.C62_failure_witness"
   ],
   "note": "A disconnect that fails leaves the debugger started (witness)."
  },
  {
   "property": "C63",
   "status": "proved",
   "theorems": [
    "Xeus.Dbg.C63_dump",
    "Xeus.Dbg.C63_source",
    "Xeus.Dbg.C63_kept",
    "Xeus.Dbg.C63_roundtrip",
    "Xeus.Dbg.C63_collision_witness",
    "Xeus.Dbg.C63_unreadable_witness"
   ],
   "note": "Two cells with one path and unreadable files are stated by witnesses."
  },
  {
   "property": "C64",
   "status": "proved",
   "theorems": [
    "Xeus.Dbg.C64_variables",
    "Xeus.Dbg.C64_slice",
    "Xeus.Dbg.C64_overflow",
    "Xeus.Dbg.C64_stack_cut",
    "Xeus.Dbg.C64_stack_same",
    "Xeus.Dbg.C64_null_witness",
    "Xeus.Dbg.C64_twice_witness",
    "Xeus.Dbg.C64_stack_witness",
    "Xeus.Dbg.C64_failed_variables",
    "Xeus.Dbg.C64_failed_stack"
   ],
   "note": "Overflow is undefined; paging twice and frames without source are stated by witnesses."
  },
  {
   "property": "C65",
   "status": "proved",
   "theorems": [
    "Xeus.C65_load",
    "Xeus.C65_unique",
    "Xeus.C65_otherwise",
    "Xeus.C65_undefined",
    "Xeus.C65_undefined_witness",
    "Xeus.C65_text",
    "Xeus.C65_unchecked_witness"
   ],
   "note": "Numbers are not checked to be ports (witness)."
  },
  {
   "property": "C66",
   "status": "proved",
   "theorems": [
    "Xeus.C66_tcp",
    "Xeus.C66_other",
    "Xeus.C66_injective",
    "Xeus.C66_config",
    "Xeus.C66_long"
   ],
   "note": "all transports, addresses and ports; what the kernel binds is a parameter"
  },
  {
   "property": "C67",
   "status": "proved",
   "theorems": [
    "Xeus.C67_search",
    "Xeus.C67_returned",
    "Xeus.C67_find",
    "Xeus.C67_silent"
   ],
   "note": "all sequences of draws and outcomes of binding; find_free_port itself throws if there is no port"
  },
  {
   "property": "C68",
   "status": "proved",
   "theorems": [
    "Xeus.C68_seconds",
    "Xeus.C68_unique",
    "Xeus.C68_exact_iff",
    "Xeus.C68_order",
    "Xeus.C68_order_witness"
   ],
   "note": "gmtime is a parameter with the law that it is the UTC calendar; an instance is proved"
  },
  {
   "property": "C69",
   "status": "proved",
   "theorems": [
    "Xeus.C69_temp",
    "Xeus.C69_temp_default",
    "Xeus.C69_temp_witness",
    "Xeus.C69_create",
    "Xeus.C69_paths",
    "Xeus.C69_file_witness",
    "Xeus.C69_cell",
    "Xeus.C69_cell_number",
    "Xeus.C69_cell_number_name",
    "Xeus.C69_prefix"
   ],
   "note": "POSIX branch; no symbolic links, no . and ..; a file in place of the directory counts as success (witness)"
  },
  {
   "property": "C70",
   "status": "proved",
   "theorems": [
    "Xeus.C70_registry"
   ],
   "note": "all sequences of registrations"
  },
  {
   "property": "C71",
   "status": "proved",
   "theorems": [
    "Xeus.C71_logged",
    "Xeus.C71_chosen"
   ],
   "note": "all chains and messages"
  },
  {
   "property": "C72",
   "status": "proved",
   "theorems": [
    "Xeus.C72_undefined",
    "Xeus.C72_stops",
    "Xeus.C72_type",
    "Xeus.C72_received",
    "Xeus.C72_lenient_witness"
   ],
   "note": "all chains and messages"
  },
  {
   "property": "C73",
   "status": "proved",
   "theorems": [
    "Xeus.C73_decodable"
   ],
   "note": ""
  },
  {
   "property": "C74",
   "status": "proved",
   "theorems": [
    "Xeus.C74_deaf",
    "Xeus.C74_witness"
   ],
   "note": ""
  },
  {
   "property": "C75",
   "status": "proved",
   "theorems": [
    "Xeus.C75_authentication",
    "Xeus.C75_no_scheme",
    "Xeus.C75_empty_key"
   ],
   "note": "all configurations"
  },
  {
   "property": "C76",
   "status": "proved",
   "theorems": [
    "Xeus.C76_publish",
    "Xeus.C76_sent",
    "Xeus.C76_sequence"
   ],
   "note": "The publisher is registered, as it is in a kernel."
  },
  {
   "property": "C77",
   "status": "proved",
   "theorems": [
    "Xeus.C77_shell",
    "Xeus.C77_control",
    "Xeus.C77_control_witness",
    "Xeus.C77_publish",
    "Xeus.C77_heartbeat",
    "Xeus.C77_split_shell",
    "Xeus.C77_split_control",
    "Xeus.C77_split_publish",
    "Xeus.C77_split_heartbeat"
   ],
   "note": "Fairness of the scheduler and of sockets with several senders are hypotheses; the deaf control socket of the default server is stated by a witness."
  },
  {
   "property": "C78",
   "status": "proved",
   "theorems": [
    "Xeus.C78_serial",
    "Xeus.C78_alone",
    "Xeus.C78_failure"
   ],
   "note": ""
  },
  {
   "property": "C79",
   "status": "proved",
   "theorems": [
    "Xeus.C79_account",
    "Xeus.C79_shell",
    "Xeus.C79_control"
   ],
   "note": "That the interpreter serves the request (Served: well-typed fields, user code returns a printable answer) is assumed only for the states reached by handling, one after the other, the messages this execution handled before. A message that arrives is also answered if the stop is requested after it was received."
  },
  {
   "property": "C80",
   "status": "proved",
   "theorems": [
    "Xeus.C80_account",
    "Xeus.C80_answer",
    "Xeus.C80_aborted",
    "Xeus.C80_shell",
    "Xeus.C80_control"
   ],
   "note": "Sequentially consistent interleavings; that user code returns only printable answers is assumed whatever state and results of calls it sees."
  },
  {
   "property": "C81",
   "status": "proved",
   "theorems": [
    "Xeus.C81_refines",
    "Xeus.C81_order",
    "Xeus.C81_rounds",
    "Xeus.C81_shell_alone",
    "Xeus.C81_control_sent",
    "Xeus.C81_control_replied",
    "Xeus.C81_waits",
    "Xeus.C81_answered",
    "Xeus.C81_shell",
    "Xeus.C81_control",
    "Xeus.C81_terminates",
    "Xeus.C81_halted",
    "Xeus.C81_blocked",
    "Xeus.C81_blocked_witness",
    "Xeus.C81_failed_witness",
    "Xeus.C81_self_witness"
   ],
   "note": "Sequentially consistent interleavings; an exception that leaves dispatch_internal halts the shell thread in the model (the process is terminated)."
  },
  {
   "property": "C82",
   "status": "proved",
   "theorems": [
    "Xeus.C82_wired",
    "Xeus.C82_calls",
    "Xeus.C82_at_most_once",
    "Xeus.C82_succeeds",
    "Xeus.C82_life",
    "Xeus.C82_sane",
    "Xeus.C82_ready",
    "Xeus.C82_ports",
    "Xeus.C82_distinct",
    "Xeus.C82_unwired",
    "Xeus.C82_remote",
    "Xeus.C82_default"
   ],
   "note": "Pointers given to the constructor are not null; builders are functions of their arguments."
  },
  {
   "property": "C83",
   "status": "proved",
   "theorems": [
    "Xeus.C83_destructor",
    "Xeus.C83_unwinding",
    "Xeus.C83_long",
    "Xeus.C83_early",
    "Xeus.C83_socketless",
    "Xeus.C83_dangling"
   ],
   "note": "That destroying a zmq context waits for its open sockets is an assumption on libzmq. The kernel has not been started (the servers end the process at the end of start)."
  },
  {
   "property": "C84",
   "status": "proved",
   "theorems": [
    "Xeus.Link.C84_rounds",
    "Xeus.Link.C84_call",
    "Xeus.Link.C84_forwarded",
    "Xeus.Link.C84_passed_on"
   ],
   "note": "That `start` connects the sockets and waits for the client's acknowledgment before it returns true, after an earlier run of the client has ended, is an assumption on the kernel author's code. Reads from the adapter are one step."
  },
  {
   "property": "C85",
   "status": "proved",
   "theorems": [
    "Xeus.Link.C85_attribution"
   ],
   "note": "For lawful codecs that do not parse the empty text; headers are canonical JSON, as are all that come from a message."
  },
  {
   "property": "C86",
   "status": "proved",
   "theorems": [
    "Xeus.Link.C86_blocked"
   ],
   "note": ""
  },
  {
   "property": "C87",
   "status": "proved",
   "theorems": [
    "Xeus.Link.C87_survives",
    "Xeus.Link.C87_rude_witness"
   ],
   "note": "Adapter, kernel author's handler and headers as described (PoliteAdapter, CivilClient, CanonHeaders); for the normal initialisation mode; handlers that talk to the adapter themselves are excluded."
  },
  {
   "property": "C88",
   "status": "proved",
   "theorems": [
    "Xeus.Link.C88_blocked",
    "Xeus.Link.C88_deaf",
    "Xeus.Link.C88_deaf_witness"
   ],
   "note": "C88_deaf needs no condition on the adapter or the handler. That a stream socket delivers an empty piece at connection is a fact about libzmq."
  },
  {
   "property": "C89",
   "status": "proved",
   "theorems": [
    "Xeus.Link.C89_comes_to_rest",
    "Xeus.Link.C89_at_rest",
    "Xeus.Link.C89_others"
   ],
   "note": ""
  },
  {
   "property": "C90",
   "status": "proved",
   "theorems": [
    "Xeus.Link.C90_in_order"
   ],
   "note": ""
  },
  {
   "property": "C91",
   "status": "proved",
   "theorems": [
    "Xeus.Link.C91_ended",
    "Xeus.Link.C91_turn"
   ],
   "note": ""
  },
  {
   "property": "C92",
   "status": "proved",
   "theorems": [
    "Xeus.Link.C92_answered",
    "Xeus.Link.C92_lost",
    "Xeus.Link.C92_lost_witness"
   ],
   "note": "Beyond the conditions of C87 and Returns (the kernel author's functions do not loop for ever): no unread pieces that are all empty (C88), and no successful start while an earlier run of the client goes on."
  },
  {
   "property": "C93",
   "status": "proved",
   "theorems": [
    "Xeus.C93_parallel",
    "Xeus.C93_server",
    "Xeus.C93_split",
    "Xeus.C93_log",
    "Xeus.C93_stop",
    "Xeus.C93_split_stop"
   ],
   "note": "The conditions on the interpreter are Tame, those on the messages Traffic."
  },
  {
   "property": "C94",
   "status": "proved",
   "theorems": [
    "Xeus.C94_shell",
    "Xeus.C94_control",
    "Xeus.C94_split_shell",
    "Xeus.C94_split_control",
    "Xeus.C94_always",
    "Xeus.C94_split_always"
   ],
   "note": "Debug requests and comm messages are not among the documented requests: the former need a debugger, the latter have no reply. Patterns for the history contain neither backslashes nor NUL bytes. C94_control needs an interpreter that reports no errors."
  },
  {
   "property": "C95",
   "status": "proved",
   "theorems": [
    "Xeus.C95_demo_safe",
    "Xeus.C95_test_safe",
    "Xeus.C95_demo_execute",
    "Xeus.C95_demo_complete",
    "Xeus.C95_demo_inspect",
    "Xeus.C95_demo_is_complete",
    "Xeus.C95_demo_info",
    "Xeus.C95_test_execute",
    "Xeus.C95_test_complete",
    "Xeus.C95_test_inspect",
    "Xeus.C95_test_is_complete",
    "Xeus.C95_test_info",
    "Xeus.C95_test_comm"
   ],
   "note": "The html text of the test kernel's pager is not specified. Messages whose header has no string msg_type leave dispatch with an exception, so they are not handled completely either. Standard output of the test kernel is not modelled."
  },
  {
   "property": "C96",
   "status": "proved",
   "theorems": [
    "Xeus.C96_file",
    "Xeus.C96_one_argument_refuted",
    "Xeus.C96_user",
    "Xeus.C96_succeeds",
    "Xeus.C96_needs",
    "Xeus.C96_demo",
    "Xeus.C96_test",
    "Xeus.C96_test_comm",
    "Xeus.C96_demo_serves",
    "Xeus.C96_test_serves",
    "Xeus.C96_test_split_serves"
   ],
   "note": ""
  },
  {
   "property": "C97",
   "status": "proved",
   "theorems": [
    "Xeus.Dbg.C97_stopped",
    "Xeus.Dbg.C97_continued",
    "Xeus.Dbg.C97_disconnected",
    "Xeus.Dbg.C97_listed",
    "Xeus.Dbg.C97_race_witness",
    "Xeus.Dbg.C97_stale_witness"
   ],
   "note": "One step per access to the state; the accesses that the code makes under the lock are one step. What the events are and when they come is arbitrary."
  },
  {
   "property": "C98",
   "status": "proved",
   "theorems": [
    "Xeus.C98_before",
    "Xeus.C98_no_number",
    "Xeus.C98_too_big",
    "Xeus.C98_negative",
    "Xeus.C98_waits",
    "Xeus.C98_ends",
    "Xeus.C98_blank_witness"
   ],
   "note": ""
  },
  {
   "property": "C99",
   "status": "proved",
   "theorems": [
    "Xeus.C99_mixture",
    "Xeus.C99_same_second",
    "Xeus.C99_alone",
    "Xeus.C99_wrong_witness",
    "Xeus.C99_invalid_witness"
   ],
   "note": "std::gmtime is taken to write the fields of its static object one after the other, in any order, and the stream to read them one after the other, as in glibc."
  }
 ]
}