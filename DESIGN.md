# Formal model of xeus: design

Source: `/repo` (QuantStack/xeus, C++), read as text only.  Model and proofs: `/verif/lean` (Lean 4.33.0).
`properties.jsonl` lists the properties C01–C114, `MANIFEST.json` says which theorems settle which property,
`seeded/LOG.jsonl` records the wrong programs the theorems were tried on.

## 1. Method

* The C++ is re-expressed function by function as Lean definitions (the `Model` files; each definition cites file and
  lines).  Strings, frames and JSON strings are lists of bytes (`Str = List UInt8`).
* Every piece of C++ has an outcome in `Res α`: `ok`, `exc` (a C++ exception, with its type as far as it matters and a
  flag for "derives from `std::exception`"), `ub` (undefined behaviour, never assumed away) or `hang` (blocked for ever in
  a receive).  Effects before an exception remain, as in C++.
* User code (interpreters, comm callbacks and handlers, debugger subclasses) is *arbitrary*: a program of a free-monad
  type whose operations are the calls user code can make into xeus (publish, ask for input, create, move, copy, destroy
  and use comms, read the parent header), plus return, throw, undefined behaviour and never returning.  Theorems quantify
  over all such programs; none is assumed to behave unless the theorem says so.
* External libraries are parameters with laws (section 4).  For each set of laws a concrete instance is constructed and
  proved lawful (`stdCodec_lawful`, `toyCrypto`, `stdRegex_lawful`, `stdGmtime_utc`, `stdPretty`), so they are consistent.
* Threads are small-step transition systems over a shared state; the theorems speak of every reachable state, of every
  schedule, and, for termination, of every fair execution (infinite sequences of steps).
* Each area has a `Spec` file written without the helpers of the model, lemma files, and `Props` files that hold only the
  property theorems (`Cnn_…`) and the `example`s that show their hypotheses met by a concrete case.
* Where the code falls short of what one would expect, the exact behaviour is stated and a theorem with suffix
  `_witness` (or one with a telling name) exhibits a concrete failing execution; all are listed in section 5.

## 2. Trusted base

* Lean's kernel, and of its axioms only `propext`, `Classical.choice` and `Quot.sound` (`#print axioms` of every claimed
  theorem is a subset of these).  No axioms of our own, no `sorry`/`admit`, no `native_decide`, no `bv_decide`.
  `decide +kernel` is used for finite computations; it is checked by the kernel.
* The faithfulness of the model to the C++ text, by reading.  What is simplified is said where it is (docstrings) and in
  section 6.
* The laws assumed of libraries, which are hypotheses of the theorems that need them.

## 3. Properties

| id | what is modelled | how it is proved |
|----|------------------|------------------|
| C01 | `Wire/Model`: `serialize`, `deserialize` over lists of frames | round trip; induction over identities; also what happens if an identity is the delimiter |
| C02 | `Wire/Model`: `serializePub`, `deserializePub` | round trip, any topic |
| C03 | as C01, with UB of `pop` on an empty multipart and of reading past a short signature | three exact characterisations (iff) by independent predicates `Accepted`, `Refused`, `Undefined`, and that exactly one holds |
| C04 | `verify` and its place in decoding | accepted iff the first 2·digest bytes are the MAC; corollaries for altered bytes; witness that trailing bytes are accepted |
| C05, C06 | `sign`, `verify` | computation with the digest-length law; independence of buffers, identities and frame boundaries |
| C07 | `AuthConc`: threads stepping through lock, init, update, final, compare, unlock on one context | inductive invariant over all reachable states, any number of threads; progress; counterexample without the lock |
| C08 | `hexString`, `newXguid` | injectivity and decoding by induction |
| C09 | `make_xauthentication`, `asevp` | case analysis against `schemeTable` |
| C10 | `Utf8/Model`: the 400-entry automaton | the automaton accepts exactly the Unicode grammar; induction with residual languages; finite tables by `decide` lifted by lemma |
| C11–C16 | `Kernel/Model`: `xkernel_core::dispatch` and all handlers, over arbitrary user programs | analysis of each handler against an outcome predicate, lifted to all messages |
| C17, C19, C31 | same, whole sessions | induction over the messages handled |
| C18, C24, C25 | the request handlers | exact courses of events (what is called with which arguments, what is sent, in what order) |
| C20, C21 | `abort_queue`, `abort_request` | induction over the queue; string analysis of `find_last_of`/`replace` |
| C22, C23 | shutdown, interrupt | exact courses of events; "no other request" by an invariant over all programs |
| C76 | the publishing functions of `xinterpreter` | exact message per call; induction over sequences of calls |
| C26, C27, C73 | everything emitted | an invariant of all steps of all programs, then over lives of a kernel; decoding by C01/C02 |
| C28, C29, C30 | `blocking_input_request`, `dispatch_stdin`, `dispatch_internal`, messengers | exact courses; laws of the codec |
| C32 | `KernelConc`: two dispatching threads, one step per access to shared state | invariant per channel over all interleavings; the thread programs are the sequential ones cut into steps |
| C33 | `build_start_msg`, `start`, after `configure` | computation, decoding by C02 |
| C34–C40 | `Comm/Model`: heap of comm objects with addresses, target nodes, registry; UB on dangling accesses, uninitialised flags | registry invariant by induction over operations; every life of a kernel is such a sequence (`C34_kernel`); exact effect of each operation; concrete executions for hazards |
| C41–C43, C45, C46 | `History/Model`: in-memory history manager, request decoding for an arbitrary `HistoryManager`, iterator arithmetic with UB | refinement to list functions (`take`/`drop`/`filter`), exact conditions of UB |
| C44 | pattern escaping and an ECMAScript regex fragment | matcher of the escaped pattern = glob specification, induction over the pattern |
| C47, C50, C74 | `Server/Model`: poll loop, publisher, heartbeat, stop handshake of the default server as a transition system with sockets as queues | invariants; variant functions and fairness for termination; concrete run for the stale readiness |
| C77 | the same transition systems, infinite executions | leads-to with a well-founded measure per socket, under fairness of the thread (and `FairSource` for sockets with several senders) |
| C78 | the same transition system against `Serial`: handlers run one after the other | simulation: between two steps of a handler only arrivals happen, and every primitive but the one that receives from the shell queue commutes with them (`KernelConc/Serial`); invariant over all runs |
| C79 | the same | invariant `Account` over `Serial`; leads-to for the end of handlers; the block of each message in the log is that of its handler run alone (C78), to which C14 applies |
| C80 | `KernelConc/Model`, `Server/Split` | a logic for handlers interrupted between any two accesses (`Wp`: what the thread itself logs, whatever the other thread does to the shared state meanwhile), applied to every handler; invariant `AInv` over all interleavings; leads-to for the end of handlers in the split servers |
| C81 | `Server/Remote`, `Server/Duo`: handlers that ask the shell thread and the sockets between the threads | refinement: every step is a step of `Server/Split`, or none (`Duo.sim`), with the half-finished exchange folded into the program of the control thread; trace invariant `TInv`; well-founded measures for the waiting control thread; the properties of `Split` are then carried over |
| C82, C83 | `Build/Model`: constructors and `init` of `xkernel`, the slots of server and interpreter filled by the core, builders, order of destruction | exact outcome of `init` for every outcome of its parts (`init_run`); calls through the slots = operations of the kernel model (`via_wired`); the state reached is one from which the servers of C76–C81 start (`Start`) |
| C48, C49 | publisher and heartbeat loops, in both servers | invariants relating what was sent to what was received |
| C51 | `Server/Split`: control, shell, publisher, heartbeat threads and their inproc sockets | invariants, leads-to arguments under fairness, witnesses for the lost and the waiting stop |
| C52 | the socket a publication uses | case analysis with two witnesses |
| C53, C54 | `Dap/Framing`: reading of the TCP stream in arbitrary chunks, writing of requests | for all messages and all chunkings; round trip |
| C55–C58 | `Dap/Model`: queue, waiting, routing, parent headers, init sequence | refinement of the queue; invariants over all runs of the client |
| C59–C64 | `Debugger/Model`: `xdebugger_base` with arbitrary subclass handlers and an arbitrary adapter | invariants over all histories of requests and events; exact answers |
| C84–C86 | `Link/Model`: control thread (`Debugger/Model`) and client thread (`Dap/Model`) interleaved, connected by the two socket pairs | invariant over all reachable states, with a small program logic for interleaved programs (`Link/Wp`) that yields what each access of either program does to the sockets |
| C87–C90 | the same; conditions on adapter, handler and headers in `Link/LiveSpec` | a second logic for interleaved programs (`Link/Safe`): safety of each access and what it may wait for; invariant counting requests, answers and bytes (`Link/SafeInv`); well-founded measure on both threads (`Link/Rest`) |
| C91, C92 | the same; `Link/EndSpec` | ghost state "stop asked for / disconnect answered" through every access of the client (`Link/Ending`); the programs of the debugger block only between sending and receiving (`Link/Prompt`); counting of requests and answers at rest |
| C93, C94 | conditions on interpreters and messages, replies in a log: `Kernels/Spec` | a logic "surely succeeds whatever the other thread does" (`Kernels/Sure`), applied to every handler (`SureHandlers`, `SureDispatch`) including the history with its patterns (`Hist`, `Queries`; what is asked of other history managers: `QuerySpec`); invariant over interleavings (`SureInv`); with C76–C81 for the servers |
| C95, C96 | example/src, test/test_interpreter.cpp, the `main` functions: `Kernels/Model`; what they say: `Kernels/DemoSpec` | the course of a request from C24 ff. for programs that publish a fixed list; composition of C65, C82, C93, C94 |
| C97 | `Debugger/Conc`: requests and events on two threads, one step per access; `Debugger/ConcSpec` | what each access of either program may do to the set (`Acts`); ghost state for what the request in hand has seen or emptied (`Link/Wp`); induction over executions cut at the moments named in the log |
| C98 | `Dap/Framing`, with header parts as in `Dap/BadFramingSpec` | induction over the messages before (`readLoop_tail`), then one iteration with an arbitrary length field |
| C99 | `Clock/Conc`: threads that call `iso8601_now`, one step per field of the static `std::tm` written or read | invariant: every field of the shared object stems from a call that began and, for a call in progress, every value gathered from one that overlaps it |
| C100 | `Server/Duo`; parts of the state and what it means to leave one untouched: `Server/PartsSpec` | every access of every handler leaves the other thread's parts untouched (`Spares`, closed under sequencing and `try`); invariant over all steps |
| C101 | `Tests/Props`: the unit tests of the library as functions of the host (user, environment, ports, temporary directory, regex library) | composition of C20–C24, C66–C68 and C72 |
| C102 | `Server/Model`, `Server/Duo`; transcripts: `Kernel/OutSpec`, `Server/TranscriptSpec` | default server: C78 and C31, then what is in hand by C32; split servers: induction over all steps with C32, carried over by the refinement of C81; clients: C48 |
| C103 | the same; `Ledger` in `Server/TranscriptSpec` | induction over the serial order of C78 with C17 and C19 |
| C104 | `Duo` of C81; `Ledger`, `Ongoing`, `Merge` in `Server/TranscriptSpec` | `Pen` (`KernelConc/Pen`): a logic for a handler's own events and entries under interference; invariant over `CReach` |
| C105 | `Dap/Peers`: the parts a stream socket delivers (identity of the peer, then bytes), `init_tcp_socket`, `append_tcp_message`, `send_dap_request`'s pair of parts; `Dap/PeersSpec` | the reader over parts refines the reader over bytes (`Dap/Framing`, C53), induction over the iterations; witnesses by running the model |
| C106 | `Kernels/Model`: the interpreter of the test kernel; `Kernels/SessionSpec`: what test_kernel.py's client sees | induction over the serial order of C78 with C95 |
| C107 | `Duo` of C81; `Server/OrderlySpec`: executions without overlap | invariant: at most one program is in progress, and it is a walk of the handler from a state of the serial order (`Walk`, `ser_dispatch` of C78); carried over by the refinement of C81; C106 for the test kernel |
| C108 | `Serial` of C78; `unrefused` in `Server/SieveSpec` | every handler commutes with removing refused messages from the queue (`Sieves`, closed under sequencing and `try`; the loop that aborts the queue by induction); induction over the serial order |
| C65, C75 | `Setup/Model`: `load_configuration`, `init` | iff against the predicate `Describes`; case analysis of schemes |
| C66, C67 | end points, `get_socket_port`, `find_free_port`, `init_socket`, `update_config` | string analysis; induction over the draws |
| C68 | `Clock/Model`: `iso8601_now` | parsing relation `Denotes`, civil calendar, decimal arithmetic |
| C69 | `Sys/Model`: temporary directories, `create_directory` over a file-system state, cell names | induction over the path; injectivity of the texts |
| C109 | `Sys/Windows`: the static variable of `get_temp_directory_path`, the branches for Windows over the same file-system state | induction over the calls and over the path |
| C110 | `Concluded`, `Credited`, `about`, `publishedOn` in `Server/GatherSpec` over the logs of `Main` and `Duo` | a proper beginning of a block has no idle notification, hence induction over the transcript; induction over the serial order of C78 with the headers of the latest messages, then induction over the messages handled later |
| C111 | `Kernels/Debugging`: the kernel of C13 with the debugger of C58 in the place of `debug_request`, its steps being steps of the kernel | every other handler commutes with the debugger's state (`Apart`, closed under sequencing and `try`); induction over what is received gives a history of the debugger as in C59–C64; printability of the answer from that of accepted messages; C78 and C107 for the servers |
| C112 | `Protocol/Spec`: the contents by type (`table`), the deviations, interpreters that keep to the protocol (`Conforming`, over the code of interpreters) | a predicate on programs that holds whatever others do between their steps (`Utters`), closed under sequencing and `try`, function by function; invariant over `CReach` for the servers; each deviation refuted against the table; for the bundled kernels (`Protocol/BundledProps`) the contents their interpreters make, case by case |
| C113 | `Everything`, `Conduct`, `HistAnswer` in `Kernels/WholeSpec` over the logs of `Main` and `Duo`, for the programs of C96 | induction over the serial order (C78, C107), each step by the account of one message (C13, C32–C40, C95); that the comm registry stays empty is part of the invariant; uniqueness by induction over the derivation |
| C114 | `Query`, `Asks` in `Kernels/QuerySpec`, `Chronicle` in `Kernels/ManagerSpec` over the logs of `Main` and `Duo`; `Env.H`, the history manager, is arbitrary; `Given.manager` in `Build/Model` | induction over the serial order (C78, C107); each step by C19 and the course of history requests; C82 for the manager given |
| C70 | registry of the interpreter | induction over the registrations |
| C71, C72 | `Logger/Model`: loggers, chains, the choice of the logger | induction over the chain; exact condition of UB |

No property is left unexpressed; none is claimed as partial.  Where an expectation is not met by the code, the property
as listed in `properties.jsonl` says what holds instead, and the theorems include the witness.

## 4. Assumptions on libraries

* nlohmann::json (`Json`, `Codec`, `LawfulCodec`): objects are key-sorted maps; `value()` on a non-object throws
  `type_error`, and on a key of the wrong type too; const `operator[]` on a missing key is UB; non-const `operator[]`
  turns null into an object and throws on other non-objects; `get<int>` accepts integers and booleans and wraps to 32
  bits, and rounds doubles towards zero, which is UB if the result is no `int`; `dump` with the strict handler throws exactly on invalid UTF-8 and parses back otherwise, the other handlers never
  throw; `parse` yields only valid UTF-8 and rejects the text `stop`.  A value is null, a boolean, an integer, a double (given
  by its 64 bits), a string, an array or an object; what is printed as a finite double parses as the same double.
* cppzmq/libzmq: `multipart_t::pop` on an empty multipart is UB; `recv` delivers whole multiparts; sockets are FIFO
  queues per pair of peers; destroying a context waits until all its sockets are closed; only PUB sockets may drop messages (before a subscription, or at the high-water mark).
* OpenSSL ≥ 1.1: the MAC is a function of key and message; the streaming interface computes it on the concatenation of
  the updates since the last init.  Nothing cryptographic (unforgeability) is assumed or claimed.
* `std::regex`: parameter with the laws of the fragment that the escaping produces; `std::tm`/`gmtime`: the UTC calendar;
  `uuid_generate`: 16 bytes; murmur2 hash: an arbitrary function.
* A history manager (`HistoryManager`, C114): the functions for tail, range and search are functions of the inputs stored so far and of their arguments
  (they are `const`), they throw nothing but `std::exception`s (`StdOnly`); `store_inputs_impl` returns.  All theorems about kernels and servers hold for any such
  manager, except those with the hypotheses `Steady` (C93: fitting questions lead neither to undefined behaviour nor to endless waiting), `Reliable` (C94:
  moreover fitting questions with literal patterns are answered by values that can be printed) and `Stock` (C112, C113: the manager is the in-memory
  one, as in the programs of C96).  The in-memory manager is `Reliable` (`Kernels/Queries`).
* The kernel author's `start` (pure virtual in `xdebugger_base`) connects the request sockets, launches the client and waits for its
  acknowledgment before it returns true, and only after an earlier run of the client has ended (C84–C92).
* For C87–C90 and C92: the adapter's bytes are (a prefix of) well-formed messages, each an object in which an event has a name, with no more
  answers than requests passed on; the kernel author's event handler and callback return, and the handler does not talk to the
  adapter itself.  Whether a stream socket delivers empty pieces is left open: the model allows them at any time.
* C112: what the messaging protocol 5.3 requires is written down in `Protocol.table` from its public documentation, which is not part of the repository.
* C105: a ZMQ_STREAM socket delivers each piece as two parts, the identity of the peer and the bytes, and an empty piece when a
  connection is made or ends.
* Threads interleave sequentially consistently; a data race on a plain `bool` or container that the C++ standard calls
  undefined is recorded as a finding where noticed, not modelled as such.

## 5. Findings

Behaviour of the code that deviates from what its users would expect; each is stated by the theorem named.

Messages and authentication
* Bytes after the first 2·digest bytes of the signature frame are ignored (`C04_trailing_bytes_accepted`); buffers and
  identities are not signed (`C06_unprotected`), nor are the boundaries of the signed frames (`C06_boundaries`).
* A multipart with one to four frames after the delimiter, or a short signature frame, is undefined behaviour before any
  authentication (`C03_undefined_iff`), also on stdin (`C29_undefined`).
* A connection file without `signature_scheme` makes the kernel's constructor throw (`C75_no_scheme`); one with a scheme and
  an empty key makes the kernel sign with a random key its clients cannot know (`C75_empty_key`).
* Dates drop the leading zeros of the microseconds: the instant is wrong unless the microseconds are 0 or ≥ 100000
  (`C68_exact_iff`), and later dates may denote earlier instants (`C68_order_witness`).

Kernel
* A `msg_type` that is not a string, or a header that is no object, leaves `dispatch` with an exception after `busy` and
  without `idle` (`C16_escapes_iff`); an exception not derived from `std::exception` likewise.
* An answer that cannot be printed gets no reply with the strict error handler (`C14_exactly_one`, hypothesis `Served`); a
  user name that is not UTF-8 keeps the kernel from starting (`C33_unprintable`).
* Output of the interpreter during a control request carries the parent of the last shell request; the notifications of
  shutdown and interrupt carry the control parent even for shell requests (`C27_attribution`).
* C110: what an execute request sent to the control channel publishes names the latest request of the shell channel, after the idle notification
  of that request (`C110_stray_witness`), so a client of the shell request takes it for an output of its own.
* C112: not as the messaging protocol requires (`C112_witness`): `input_request` has `pwd` instead of `password`, so that frontends do not hide
  what is typed; the replies to shutdown and interrupt requests have no `status`; aborted requests are answered with `error` and no
  description instead of `aborted`; in history replies session and line are strings and the output is a fourth element instead of a pair with the
  input; a range that is too high sets `ename` twice instead of `ename` and `evalue`; an unknown kind of access is answered with `null`.  The
  `kernel_info` replies of the example and test kernels have no `status` (`C112_info_witness`), their completions and the results the test
  kernel publishes no `metadata`, the inspections of the example kernel neither `data` nor `metadata`, and the test kernel says the code it is
  given is the `status` of the code (`C112_bundled_refuted`).
* Aborting: a type without underscore stops the abort loop and is lost (`C20_stuck`, `C21_no_underscore`); a missing status
  counts as error; replacing eight bytes can cut a UTF-8 sequence (`C21_code`).
* docs/source says that an input is hidden if the second argument of `blocking_input_request` is false; the code sends this argument as `pwd` (C28).
  It also says that the heartbeat sends at a regular rate, but it only echoes (C49), and suggests that code can be interrupted through
  the control channel, but an interrupt request never reaches the interpreter (C23).
* If `input_request` throws, its input handler stays registered (`C28_handler_remains`).
* The execution counter may overflow (undefined).
* A double that is no `int` in the place of `execution_count`, `cursor_pos` or `detail_level` of a request (for instance
  `1e10`) is undefined behaviour (`C24_undefined`); so it is in a history request (`C46_request_wild`) and as a port in the
  connection file (`C65_undefined_witness`).

Comms
* Missing `comm_id` or `target_name` members are undefined behaviour (`C35_undefined`, `C36_undefined`); so is a callback
  of `comm_open` that does not move the comm away while leaving it registered (`C40_callback_returns`).
* The lifetime hazards of `xcomm` (`C40_…`): uninitialised flag, assignment to a moved-from comm, `std::swap`, self-move,
  unregistered targets, re-opened ids; `target(name)` for an unknown name plants a null target that crashes the kernel as soon as a
  client opens it (`C40_unknown_target_open`).

History
* Negative arguments of a client are undefined behaviour (`C46_…`); backslashes in patterns are not literal and a trailing
  one throws (`C44_trailing_backslash`); `unique` collapses adjacent entries only (`C43_collapse_unique`); entry times and
  the raw flag are ignored, and `output = true` adds a column that is always the stored text (`C45_flags`).
* Nobody calls `xhistory_manager::configure()`, so the `configure_impl` of a kernel author's manager never runs; docs/source shows
  `store_inputs_impl` with two parameters, the class has four.  (Read in the source; no theorem.)

Servers
* After a control message whose handler empties the shell queue, the default server may wait for a shell message and be
  deaf to control (`C74_deaf`, `C74_witness`); if no shell message comes, control messages wait for ever
  (`C77_control_witness`).
* Publications still queued when the publisher sees the stop command are lost (`C48_loss_witness`).
* Split server: a stop requested on the shell channel takes effect only with the next control message
  (`C51_shell_waits_witness`), is lost if the control loop has not begun (`C51_lost_witness`); after an abort by the control
  thread the kernel may never end (`C51_stuck_witness`); `m_request_stop`, `m_control_stopped` are plain `bool`s.
* Split server: a debug request that needs the shell thread waits for the code being executed, and every other control
  message, also a shutdown or interrupt request, waits behind it (`C81_blocked`, `C81_blocked_witness`); an exception in an
  internal request leaves the shell thread instead of reaching the debugger as in the default server (`C81_failed_witness`); a debug
  request on the shell channel makes the shell thread wait for itself for ever (`C81_self_witness`).
* Publications through a socket owned by another thread (`C52_shell_witness`, `C52_control_witness`).
* Split server: `iso8601_now` uses `std::gmtime`, whose result all threads share: dates can be wrong or no dates
  (`C99_wrong_witness`, `C99_invalid_witness`).  All handlers are available on the control channel, though most are not safe there:
  two execute requests at the same time can get the same number (`C100_count_witness`).  Seen by a client, one thread may say
  idle while the other is busy (`C102_mixed_witness`).
* The line number of an entry of the history is `execution_count` of the request, a field requests do not have in the protocol, so
  that all entries have the number 1 (`C103_line_witness`).
  With the split servers entries of different threads may be in another order than the replies (`C104_order_witness`).
* End points of more than 31 characters make the start fail (`C66_long`), ports of other transports are read back wrong
  (`C66_other`), a socket for which no port is found silently stays unbound (`C67_silent`), the range for automatic ports includes 65536, `find_free_port` throws instead
  of returning nothing (`C67_find`), its range includes 65536.
* The context of a kernel is destroyed before its server: destroying a kernel that was not started never returns
  (`C83_destructor`), nor does a constructor in which something fails after the server was built (`C83_unwinding`), e.g. because the
  address is long (`C83_long`).  The core is destroyed before the interpreter, whose destructor must not use the kernel in any way
  (`C83_dangling`).
* With a split server `configure` must not send requests to the shell thread (`C82_remote`).
* Ports are not checked, booleans count as ports (`C65_unchecked_witness`).

Debugger
* Complete messages are withheld while the next one is partial (`C53_withheld_witness`).
* `wait_for_message` drops earlier matches of one batch (`C55_lost_witness`); an unsolicited response of the adapter
  throws out of the client thread (`C56_unsolicited`); handlers that wait for their own event lose it or run into undefined
  behaviour (`C56_greedy_…`); stale readiness after the init sequence may block (`C57_stale_witness`); `seq + 1` may overflow
  (`C57_overflow`); a bad parent header throws out of the thread (`C58_bad_parent`).
* An answer too many ends the client's thread (`C87_rude_witness`).  A stream socket delivers an empty piece when the connection is
  made; as a TCP client (`dap_tcp_type::client`) `init_tcp_socket` does not consume it, as a server it does
  (src/xdap_tcp_client.cpp:187-200).  The client then reads on in `handle_tcp_socket` and is deaf to the debugger until the adapter
  speaks first (`C88_deaf`, `C88_deaf_witness`).
* The client does not look at the identity in front of each piece (src/xdap_tcp_client.cpp:255-322): the message of any other peer counts
  as one of the adapter's (`C105_stranger_witness`), can answer a request of the debugger and end the client (`C105_ended_witness`) or
  spoil a message of the adapter (`C105_spoilt_witness`).  Started again as a server, it can take the adapter of the first run, which is
  gone, for the new one (`C105_restart_witness`).
* If `stop` throws while a `disconnect` request is processed, `m_is_started` stays true although the client has ended; the next
  request of the frontend is sent to nobody, and the control thread waits for ever (`C92_lost`, `C92_lost_witness`).
* A failing disconnect leaves the debugger started with its records (`C62_failure_witness`).
* `m_stopped_threads.clear()` at disconnect takes no lock (src/xdebugger_base.cpp:375): the client's thread, which goes on with the
  messages queued after the adapter's response to `disconnect` (src/xdap_tcp_client.cpp:324-346), can be about to insert in the set at
  the same time (`C97_race_witness`), and a thread inserted afterwards stays listed (`C97_stale_witness`).  `get_stopped_threads`
  returns the set by reference, without lock.
* Cells with the same hash share a file, the first one wins (`C63_collision_witness`); an unreadable file is overwritten
  (`C63_unreadable_witness`).
* A length field of the adapter that is no number ends the client's thread with an exception, a negative one makes it wait for ever, and a
  blank one is replaced by a number found in the body, since the text given to `stoull` is not cut at the empty line
  (src/xdap_tcp_client.cpp:283: the second argument of `substr` is a length; `C98_…`).
* Paging yields null for an empty slice, pages twice if the adapter pages too, and overflows (`C64_…`).  A failure of the adapter has no
  body: the answer to a paged request is then lost in a `type_error` (`C64_failed_variables`), and that to `stackTrace` gets a body
  with null frames (`C64_failed_stack`).

Programs that come with the library
* Called with exactly one argument, all of them make a `std::string` from a null pointer (`C96_one_argument_refuted`).
* Opening a comm of the target that the test kernel registers is undefined behaviour (`C95_test_comm`, `C96_test_comm`), since its callback
  lets the comm be destroyed and the destructor reads a flag that was never set (C40).

Files and logging
* An empty `TMPDIR` is undefined behaviour (`C69_temp_witness`); a file in place of a directory counts as success
  (`C69_file_witness`).
* On Windows `create_directory` reports a failure if the directory is there already, and always for a path that ends with a separator, such as
  `get_tmp_prefix()` (`C109_create`, `C109_prefix`, `C109_twice`): a second run of the unit test `create_directory` fails there.  Neither
  a failing `GetUserName` nor a long temporary path is handled (`C109_user`, `C109_temp`).
* Registering a null interpreter returns true (`C70_registry`).
* An active logger makes messages without identities undefined behaviour (`C72_undefined`) and throws on text the kernel
  itself sends without trouble under a lenient error handler (`C72_lenient_witness`).

## 6. What is and what is not modelled

Modelled: src/xmessage.cpp, xauthentication.cpp, xguid.cpp, xstring_utils.hpp, xkernel_core.cpp, xkernel.cpp,
xkernel_configuration.cpp, xinterpreter.cpp, xinput.cpp, xcomm.cpp and include/xeus/xcomm.hpp, xhistory_manager.cpp,
xin_memory_history_manager.cpp, xserver.cpp, xserver_zmq.cpp, xserver_zmq_split.cpp, xserver_control_main.cpp,
xserver_shell_main.cpp, xcontrol.cpp, xshell.cpp, xpublisher.cpp, xheartbeat.cpp, xtrivial_messenger.cpp, xzmq_messenger.cpp,
xcontrol_messenger.cpp, xmiddleware.cpp, xdebugger.cpp, xdebugger_base.cpp, xdap_tcp_client.cpp, xsystem.cpp, xlogger.cpp,
xlogger_impl.cpp, the registry of xmock_interpreter.cpp/hpp; example/src, test/main.cpp, main_control.cpp, main_shell.cpp,
test_interpreter.cpp, test_xin_memory_history_manager.cpp and test_unit_kernel.cpp.

Not modelled: memory allocation failure; drives and backslashes in paths on Windows; the text of exception messages unless sent; output of `std::clog`/`std::cerr`; clocks before 1970; paths
with NUL bytes, `.`/`..` or symbolic links; the process name and id (parameters); `max_tries = SIZE_MAX` of the port search;
data races as such (see section 4); null pointers given to the constructor of a kernel; what threads of a started kernel do when it
is destroyed (they end the process instead); sending to a peer of a stream socket that is gone.  The output on `std::cerr` of a
message that could not be handled (src/xkernel_core.cpp:231-236) dumps its content strictly; that cannot throw, since what was parsed is
valid UTF-8 (`LawfulCodec.parse_wf`).  The ghost fields `World.acts` and the records `rcvd`, `waited`, `lost`, `routed` of the
debugger client do not influence the model; they only let specifications speak of the past.
