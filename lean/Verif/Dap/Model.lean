import Verif.Dap.Framing
import Verif.Kernel.Model

/-!
# The debug adapter client: the model

Models src/xdap_tcp_client.cpp (`xdap_tcp_client`).  The framing of the byte stream is in `Verif/Dap/Framing.lean`.

The class is abstract: `handle_event` is supplied by the kernel author, who can call `forward_event`,
`send_dap_request`, `wait_for_message` and `parent_header`; here it is an arbitrary program over these operations.
The event callback given at construction (`xdebugger_base::handle_event` in practice) is an arbitrary function on the
same user state.

Each input list of the state holds everything that will ever arrive on a socket, so that an answer of the adapter to a
request is simply in the list; polling may report any subset of the sockets with something left.

Simplifications: connecting and disconnecting are not modelled; the two ZeroMQ parts of each message on the stream socket
are one item here (the identity of its peer: `Verif/Dap/Peers.lean`).
-/

namespace Xeus

/-- Operations available to `handle_event` (include/xeus/xdap_tcp_client.hpp:77-83). -/
inductive DapOp where
  | forward (j : Json)
  | request (j : Json)
  | wait (cond : Json → Res Bool)
  | parentHeader

/-- What the client does to its surroundings. -/
inductive DapEv where
  /-- bytes sent to the debug adapter -/
  | tcp (bytes : Str)
  /-- sent on `m_controller` to the debugger of the kernel -/
  | reply (bytes : Str)
  /-- a parent header received on `m_controller_header` and acknowledged -/
  | header (bytes : Str)
  /-- published -/
  | pub (m : PubMessage) (wire : Multipart)
  /-- `m_event_callback(j)` -/
  | callback (j : Json)
  /-- `handle_event(j)` -/
  | event (j : Json)
  deriving DecidableEq, Repr

/-- State of the client, of the user code (`σ`) and of the sockets. -/
structure Dap (σ : Type) where
  st : σ
  /-- `m_parent_header` -/
  parentHeader : Str
  /-- `m_request_stop`, `m_wait_attach` -/
  requestStop : Bool
  waitAttach : Bool
  /-- state of the reply socket `m_controller`: a request has been received and not answered -/
  replyDue : Bool
  /-- `m_message_queue`, `m_stopped_queue` -/
  queue : List Str
  stopped : List Str
  /-- what will arrive from the adapter, on `m_controller` and on `m_controller_header` -/
  tcpIn : List Str
  ctlIn : List Str
  hdrIn : List Str
  /-- GUIDs and clock readings so far -/
  guids : Nat
  clocks : Nat
  out : List DapEv
  /-- records for the benefit of specifications, on which nothing depends: the messages received from the adapter,
  those returned by `wait_for_message`, those overwritten in it, and those passed on by `process_message_queue` -/
  rcvd : List Str
  waited : List Str
  lost : List Str
  routed : List Str

/-- A client: what is fixed at construction. -/
structure Client (σ : Type) where
  /-- of which only the codec, authentication, names, GUIDs and clock are used -/
  env : Env
  /-- `m_dap_init_type == dap_init_type::parallel` -/
  parallel : Bool
  onEvent : Json → Prog σ DapOp Unit
  callback : Json → σ → Res Unit × σ

section
variable {σ : Type} (cl : Client σ)

/-! ## Primitive effects -/

def dapEmit (e : DapEv) : K (Dap σ) Unit := K.modify fun s => { s with out := s.out ++ [e] }

/-- `m_controller.send`: a reply socket can only send after having received, otherwise `zmq::error_t` (`EFSM`). -/
def controllerSend (bytes : Str) : K (Dap σ) Unit :=
  K.lift fun s =>
    if s.replyDue then (.ok (), { s with replyDue := false, out := s.out ++ [.reply bytes] })
    else (.exc .zmq, s)

/-- `make_header("debug_event", m_user_name, m_session_id)` (src/xmessage.cpp:251-263). -/
def dapMakeHeader : K (Dap σ) Json :=
  K.lift fun s =>
    (.ok (headerJson (newXguid (cl.env.guid s.guids)) cl.env.user cl.env.session (cl.env.now s.clocks)
      (lit "debug_event")), { s with guids := s.guids + 1, clocks := s.clocks + 1 })

/-- The parent header published (src/xdap_tcp_client.cpp:58). -/
def dapParent (s : Dap σ) : Res Json :=
  if s.parentHeader.isEmpty then .ok (.obj []) else cl.env.J.parseZmq s.parentHeader

/-- `m_event_callback(message)` (src/xdap_tcp_client.cpp:55). -/
def runCallback (j : Json) : K (Dap σ) Unit :=
  K.lift fun s => ((cl.callback j s.st).1, { s with st := (cl.callback j s.st).2, out := s.out ++ [.callback j] })

/-- `forward_event` (src/xdap_tcp_client.cpp:53-67). -/
def forwardEvent (j : Json) : K (Dap σ) Unit := do
  runCallback cl j
  let header ← dapMakeHeader cl
  let parent ← K.readR (dapParent cl)
  let m : PubMessage := ⟨lit "debug_event", ⟨header, parent, .obj [], j, []⟩⟩
  let wire ← K.ofRes (serializePub cl.env.C cl.env.J cl.env.auth .strict m)
  dapEmit (.pub m wire)

/-- `send_dap_request` (src/xdap_tcp_client.cpp:69-81). -/
def sendDapRequest (j : Json) : K (Dap σ) Unit := do
  let content ← K.ofRes (cl.env.J.writeZmq .strict j)
  dapEmit (.tcp (dapFrame content))

/-! ## Waiting -/

/-- `condition(nl::json::parse(raw))`. -/
def testMsg (cond : Json → Res Bool) (raw : Str) : Res (Json × Bool) := do
  let j ← cl.env.J.parseZmq raw
  let b ← cond j
  return (j, b)

/-- The `find_if` over the message queue (src/xdap_tcp_client.cpp:89-95): the message found, its text, and the queue
without it. -/
def searchQueue (cond : Json → Res Bool) : List Str → Res (Option (Json × Str × List Str))
  | [] => .ok none
  | raw :: q =>
    match testMsg cl cond raw with
    | .ok (j, true) => .ok (some (j, raw, q))
    | .ok (_, false) =>
      match searchQueue cond q with
      | .ok (some (j, r, q')) => .ok (some (j, r, raw :: q'))
      | r => r
    | .exc e => .exc e
    | .ub w => .ub w
    | .hang => .hang

/-- Result of emptying `m_stopped_queue`. -/
structure Drained where
  /-- `ok` with the message found, if any -/
  res : Res (Option Json)
  stopped : List Str
  queue : List Str
  /-- records: what is returned, what is overwritten -/
  waited : List Str
  lost : List Str

/-- The loop `while (!m_stopped_queue.empty())` (src/xdap_tcp_client.cpp:106-120).  `found` is the value of `message`
and its text if `wait_cond` has become false; an earlier value is overwritten. -/
def drain (cond : Json → Res Bool) : List Str → List Str → Option (Json × Str) → List Str → Drained
  | [], queue, found, lost =>
    ⟨.ok (found.map Prod.fst), [], queue, (found.map Prod.snd).toList, lost⟩
  | raw :: stopped, queue, found, lost =>
    match testMsg cl cond raw with
    | .ok (j, true) => drain cond stopped queue (some (j, raw)) (lost ++ (found.map Prod.snd).toList)
    | .ok (_, false) => drain cond stopped (queue ++ [raw]) found lost
    | .exc e => ⟨.exc e, raw :: stopped, queue, [], lost ++ (found.map Prod.snd).toList⟩
    | .ub w => ⟨.ub w, raw :: stopped, queue, [], lost ++ (found.map Prod.snd).toList⟩
    | .hang => ⟨.hang, raw :: stopped, queue, [], lost ++ (found.map Prod.snd).toList⟩

/-- The state after draining. -/
def afterDrain (s : Dap σ) (rcvd tcpIn : List Str) (d : Drained) : Dap σ :=
  { s with queue := d.queue, stopped := d.stopped, tcpIn := tcpIn, rcvd := rcvd, waited := s.waited ++ d.waited,
           lost := s.lost ++ d.lost }

/-- The loop `while (wait_cond)` (src/xdap_tcp_client.cpp:103-121).  Every read takes at least one chunk, so the
counter, which starts above the number of chunks, never runs out. -/
def waitLoop (cond : Json → Res Bool) : Nat → Dap σ → Res Json × Dap σ
  | 0, s => (.hang, s)
  | n + 1, s =>
    match handleTcp s.stopped s.tcpIn with
    | .got q cs =>
      let d := drain cl cond q s.queue none []
      let s' := afterDrain s (s.rcvd ++ q.drop s.stopped.length) cs d
      match d.res with
      | .ok (some j) => (.ok j, s')
      | .ok none => waitLoop cond n s'
      | .exc e => (.exc e, s')
      | .ub w => (.ub w, s')
      | .hang => (.hang, s')
    | .thrown e q cs =>
      (.exc e, { s with stopped := q, tcpIn := cs, rcvd := s.rcvd ++ q.drop s.stopped.length })
    | .blocked | .endless => (.hang, s)

/-- `wait_for_message` (src/xdap_tcp_client.cpp:83-123). -/
def waitForMessage (cond : Json → Res Bool) : K (Dap σ) Json :=
  K.lift fun s =>
    match searchQueue cl cond s.queue with
    | .ok (some (j, raw, q)) => (.ok j, { s with queue := q, waited := s.waited ++ [raw] })
    | .ok none => waitLoop cl cond (s.tcpIn.length + 1) s
    | .exc e => (.exc e, s)
    | .ub w => (.ub w, s)
    | .hang => (.hang, s)

/-! ## User code -/

/-- The operations. -/
def dapSem : DapOp → K (Dap σ) Val
  | .forward j => do forwardEvent cl j; return .unit
  | .request j => do sendDapRequest cl j; return .unit
  | .wait cond => do return .json (← waitForMessage cl cond)
  | .parentHeader => K.read fun s => .str s.parentHeader

/-- Execution of `handle_event`. -/
def dapExec {α : Type} : Prog σ DapOp α → K (Dap σ) α
  | .ret a => pure a
  | .throw e => K.throw e
  | .ub w => K.ofRes (.ub w)
  | .hang => K.ofRes .hang
  | .get k => do dapExec (k (← K.read fun s => s.st))
  | .set st k => do K.modify (fun s => { s with st := st }); dapExec k
  | .call o k => do dapExec (k (← (dapSem cl o).attempt))

/-! ## The sockets -/

/-- The text of a JSON value equals a string literal (`json == const char*`). -/
def isText (j : Json) (s : String) : Bool := decide (j = .str (lit s))

/-- The conditions of `handle_init_sequence` (src/xdap_tcp_client.cpp:351-375): two members of a constant JSON value
compared with literals. -/
def twoMembers (k₁ v₁ k₂ v₂ : String) (j : Json) : Res Bool := do
  let a ← j.cidx (lit k₁)
  if isText a v₁ then do
    let b ← j.cidx (lit k₂)
    return isText b v₂
  else return false

def isInitialized : Json → Res Bool := twoMembers "type" "event" "event" "initialized"
def isConfigDone : Json → Res Bool := twoMembers "type" "response" "command" "configurationDone"
def isAttach : Json → Res Bool := twoMembers "type" "response" "command" "attach"

/-- `initialized["seq"].get<int>() + 1` (src/xdap_tcp_client.cpp:360): signed overflow is undefined. -/
def nextSeq (j : Json) : Res Int := do
  let v ← j.idx (lit "seq")
  let n ← v.getInt
  if n = intMax then .ub "signed overflow in seq + 1" else .ok (n + 1)

/-- `configuration_done` (src/xdap_tcp_client.cpp:357-362). -/
def configDone (seq : Int) : Json :=
  .obj [(lit "command", .str (lit "configurationDone")), (lit "seq", .int seq), (lit "type", .str (lit "request"))]

/-- `handle_init_sequence` (src/xdap_tcp_client.cpp:348-382). -/
def handleInitSequence : K (Dap σ) Unit := do
  let initialized ← waitForMessage cl isInitialized
  let seq ← K.ofRes (nextSeq initialized)
  sendDapRequest cl (configDone seq)
  let _ ← waitForMessage cl isConfigDone
  let attach ← waitForMessage cl isAttach
  forwardEvent cl initialized
  let raw ← K.ofRes (cl.env.J.writeZmq .strict attach)
  controllerSend raw

/-- `handle_header_socket` (src/xdap_tcp_client.cpp:215-221). -/
def handleHeader : K (Dap σ) Unit :=
  K.lift fun s =>
    match s.hdrIn with
    | [] => (.hang, s)
    | h :: r => (.ok (), { s with hdrIn := r, parentHeader := h, out := s.out ++ [.header h] })

/-- `m_controller.recv`: blocks while nothing has arrived; refused (`EFSM`) while an answer is due. -/
def controllerRecv : K (Dap σ) Str :=
  K.lift fun s =>
    if s.replyDue then (.exc .zmq, s)
    else match s.ctlIn with
      | [] => (.hang, s)
      | m :: r => (.ok m, { s with ctlIn := r, replyDue := true })

/-- Lines 240-244 of `handle_control_socket`. -/
def attachTail (isAttachRequest : Bool) : K (Dap σ) Unit :=
  if isAttachRequest then do
    handleInitSequence cl
    K.modify fun s => { s with waitAttach := false }
  else pure ()

/-- The branch `m_wait_attach` of `handle_control_socket` (src/xdap_tcp_client.cpp:228-245). -/
def handleControlWaiting (raw : Str) : K (Dap σ) Unit := do
  let text ← K.ofRes (controlText raw)
  let j ← K.ofRes (cl.env.J.parseZmq text)
  dapEmit (.tcp raw)
  let command ← K.ofRes (j.idx (lit "command"))
  attachTail cl (isText command "attach")

/-- `handle_control_socket` (src/xdap_tcp_client.cpp:223-253). -/
def handleControl : K (Dap σ) Unit := do
  let raw ← controllerRecv
  let waiting ← K.read fun s => s.waitAttach
  if waiting then handleControlWaiting cl raw else dapEmit (.tcp raw)

/-- `handle_tcp_socket(m_message_queue)`. -/
def readMessages : K (Dap σ) Unit :=
  K.lift fun s =>
    match handleTcp s.queue s.tcpIn with
    | .got q cs => (.ok (), { s with queue := q, tcpIn := cs, rcvd := s.rcvd ++ q.drop s.queue.length })
    | .thrown e q cs => (.exc e, { s with queue := q, tcpIn := cs, rcvd := s.rcvd ++ q.drop s.queue.length })
    | .blocked | .endless => (.hang, s)

/-! ## The message queue -/

/-- `m_message_queue.pop_front()`: undefined on an empty queue. -/
def popFront : K (Dap σ) Unit :=
  K.lift fun s =>
    match s.queue with
    | [] => (.ub "pop_front on an empty queue", s)
    | _ :: q => (.ok (), { s with queue := q })

/-- A message that is not an event (src/xdap_tcp_client.cpp:337-342). -/
def passOn (raw : Str) (command : Json) : K (Dap σ) Unit := do
  K.modify fun s => { s with requestStop := s.requestStop || isText command "disconnect" }
  controllerSend raw
  K.modify fun s => { s with routed := s.routed ++ [raw] }

/-- An event (src/xdap_tcp_client.cpp:331-334). -/
def passEvent (raw : Str) (j : Json) : K (Dap σ) Unit := do
  K.modify fun s => { s with routed := s.routed ++ [raw], out := s.out ++ [.event j] }
  dapExec cl (cl.onEvent j)

/-- The body of the loop for the message `raw` at the front (src/xdap_tcp_client.cpp:328-343). -/
def handleMessage (raw : Str) : K (Dap σ) Unit := do
  let j ← K.ofRes (cl.env.J.parseZmq raw)
  let type ← K.ofRes (j.idx (lit "type"))
  if isText type "event" then passEvent cl raw j
  else do
    let command ← K.ofRes (j.idx (lit "command"))
    passOn raw command

/-- One iteration of `process_message_queue` (src/xdap_tcp_client.cpp:326-345). -/
def processOne (raw : Str) : K (Dap σ) Unit := do
  handleMessage cl raw
  popFront

/-- `process_message_queue` (src/xdap_tcp_client.cpp:324-346): from a state to the outcome and the final state. -/
inductive Process : Dap σ → Res Unit → Dap σ → Prop
  | empty {s} : s.queue = [] → Process s (.ok ()) s
  | more {s s' s'' raw q r} : s.queue = raw :: q → (processOne cl raw).run s = (.ok (), s') →
      Process s' r s'' → Process s r s''
  | stop {s s' raw q r} : s.queue = raw :: q → (processOne cl raw).run s = (r, s') → r ≠ .ok () →
      Process s r s'

/-! ## The main loop -/

/-- `if (b) m`. -/
def whenK (b : Bool) (m : K (Dap σ) Unit) : K (Dap σ) Unit := if b then m else pure ()

/-- The three `if`s after the poll (src/xdap_tcp_client.cpp:154-167). -/
def afterPoll (hdr ctl tcp : Bool) : K (Dap σ) Unit := do
  whenK hdr handleHeader
  whenK ctl (handleControl cl)
  whenK tcp readMessages

/-- What `zmq::poll` can report: at least one socket, each with something to receive; a reply socket that owes an
answer reports nothing. -/
def PollOk (s : Dap σ) (hdr ctl tcp : Bool) : Prop :=
  (hdr || ctl || tcp) = true ∧ (hdr = true → s.hdrIn ≠ []) ∧ (ctl = true → s.ctlIn ≠ [] ∧ s.replyDue = false) ∧
    (tcp = true → s.tcpIn ≠ [])

/-- One iteration of the loop (src/xdap_tcp_client.cpp:150-170). -/
inductive Iter : Dap σ → Res Unit → Dap σ → Prop
  | done {s s' s'' hdr ctl tcp r} : s.requestStop = false → PollOk s hdr ctl tcp →
      (afterPoll cl hdr ctl tcp).run s = (.ok (), s') → Process cl s' r s'' → Iter s r s''
  | fail {s s' hdr ctl tcp r} : s.requestStop = false → PollOk s hdr ctl tcp →
      (afterPoll cl hdr ctl tcp).run s = (r, s') → r ≠ .ok () → Iter s r s'

/-- The client before `start_debugger`, given what will arrive. -/
def Dap.initial (st : σ) (tcpIn ctlIn hdrIn : List Str) : Dap σ :=
  ⟨st, [], false, false, false, [], [], tcpIn, ctlIn, hdrIn, 0, 0, [], [], [], [], []⟩

/-- `start_debugger` up to the loop (src/xdap_tcp_client.cpp:130-149). -/
def startDebugger : K (Dap σ) Unit := do
  let _ ← controllerRecv
  controllerSend (lit "ACK")
  K.modify fun s => { s with requestStop := false, waitAttach := cl.parallel }

/-- States reached at the top of the loop. -/
inductive DapReach (s₀ : Dap σ) : Dap σ → Prop
  | start {s} : (startDebugger cl).run s₀ = (.ok (), s) → DapReach s₀ s
  | iter {s s'} : DapReach s₀ s → Iter cl s (.ok ()) s' → DapReach s₀ s'

end

end Xeus
