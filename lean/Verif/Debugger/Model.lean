import Verif.Dap.Model

/-!
# The debugger: the model

Models src/xdebugger_base.cpp (`xdebugger_base`), except for the Windows branch of `stack_trace_request`
(lines 217-225).

The class is abstract.  The virtual functions `start`, `stop`, `get_debugger_info` and `get_cell_temporary_file` are
arbitrary functions on the state of the user code; what `start` and `stop` do with the sockets is not modelled.  Further
handlers registered by the kernel author are arbitrary programs over the protected functions.

The debug adapter client (`Verif/Dap`) is at the other end of the two request sockets; here its answers are two lists,
holding everything that will ever arrive; running out of answers means waiting for ever.

Files are a map from paths to contents, with two predicates saying which paths can be opened for reading and writing;
directories, concurrent changes and embedded zero bytes in paths are not modelled.  Output to `std::clog` is not modelled.
-/

namespace Xeus.Dbg

open Xeus

/-- `xdebugger_info` (include/xeus/xdebugger_base.hpp:30-43). -/
structure Info where
  hashSeed : Nat
  prefix_ : Str
  suffix : Str
  rich : Bool
  exceptionPaths : List Str
  deriving DecidableEq, Repr

/-- The protected functions available to handlers of the kernel author (include/xeus/xdebugger_base.hpp:53-86). -/
inductive Op where
  | isStarted
  | stoppedThreads
  | forward (m : Json)
  | debugInfo (m : Json)
  | dumpCell (m : Json)
  | setBreakpoints (m : Json)
  | source (m : Json)
  | stackTrace (m : Json)
  | variables (m : Json)
  | continuedEvent (m : Json)
  | stoppedEvent (m : Json)

/-- `request_handler_t`: one of the functions of the class or a function of the kernel author. -/
inductive Handler (σ : Type) where
  | debugInfo
  | dumpCell
  | setBreakpoints
  | source
  | stackTrace
  | variables
  | user (f : Json → Prog σ Op Json)

/-- `event_handler_t`. -/
inductive EvHandler (σ : Type) where
  | continued
  | stopped
  | user (f : Json → Prog σ Op Unit)

/-- What the debugger does to its surroundings. -/
inductive Event where
  /-- `start` has returned -/
  | start (ok : Bool)
  /-- `stop` has returned -/
  | stop
  /-- sent on `m_header_socket` -/
  | header (bytes : Str)
  /-- sent on `m_request_socket` -/
  | request (bytes : Str)
  deriving DecidableEq, Repr

/-- State. -/
structure State (σ : Type) where
  st : σ
  /-- `m_is_started` -/
  started : Bool
  /-- `m_breakpoint_list`, sorted by source; the vectors are JSON arrays -/
  breakpoints : List (Str × Json)
  /-- `m_stopped_threads`, sorted -/
  threads : List Int
  files : Str → Option Str
  /-- what will arrive on `m_request_socket` and `m_header_socket` -/
  replies : List Str
  acks : List Str
  out : List Event

/-- A debugger: what is fixed at construction. -/
structure Debugger (σ : Type) where
  J : Codec
  start : σ → Res Bool × σ
  stop : σ → Res Unit × σ
  info : σ → Res Info
  cellFile : Str → σ → Res Str
  readable : Str → Bool
  writable : Str → Bool
  /-- handlers registered by the kernel author: name, `require_started`, handler -/
  requests : List (Str × Bool × Handler σ)
  events : List (Str × EvHandler σ)

section
variable {σ : Type} (d : Debugger σ)

/-! ## Registration -/

/-- The registrations in the constructor (src/xdebugger_base.cpp:43-48), then those of the kernel author. -/
def Debugger.allRequests : List (Str × Bool × Handler σ) :=
  [(lit "debugInfo", false, .debugInfo), (lit "dumpCell", true, .dumpCell),
   (lit "setBreakpoints", true, .setBreakpoints), (lit "source", true, .source),
   (lit "stackTrace", true, .stackTrace), (lit "variables", true, .variables)] ++ d.requests

/-- Lookup in `m_started_handler` (`needStarted`) or `m_request_handler`: the last registration counts
(`register_request_handler`, src/xdebugger_base.cpp:68-74). -/
def Debugger.requestHandler (needStarted : Bool) (name : Str) : Option (Handler σ) :=
  (d.allRequests.reverse.find? fun r => decide (r.1 = name) && r.2.1 == needStarted).map fun r => r.2.2

/-- src/xdebugger_base.cpp:50-51, then the registrations of the kernel author. -/
def Debugger.allEvents : List (Str × EvHandler σ) :=
  [(lit "continued", .continued), (lit "stopped", .stopped)] ++ d.events

/-- Lookup in `m_event_handler` (src/xdebugger_base.cpp:276-280). -/
def Debugger.eventHandler (name : Str) : Option (EvHandler σ) :=
  (d.allEvents.reverse.find? fun r => decide (r.1 = name)).map fun r => r.2

/-! ## Sockets -/

def emit (e : Event) : K (State σ) Unit := K.modify fun s => { s with out := s.out ++ [e] }

def recvReply : K (State σ) Str :=
  K.lift fun s =>
    match s.replies with
    | [] => (.hang, s)
    | r :: rs => (.ok r, { s with replies := rs })

def recvAck : K (State σ) Str :=
  K.lift fun s =>
    match s.acks with
    | [] => (.hang, s)
    | r :: rs => (.ok r, { s with acks := rs })

/-- `forward_message` (src/xdebugger_base.cpp:255-270). -/
def forwardMessage (m : Json) : K (State σ) Json := do
  let content ← K.ofRes (d.J.writeZmq .strict m)
  emit (.request (dapFrame content))
  let raw ← recvReply
  K.ofRes (d.J.parseZmq raw)

/-! ## Requests -/

/-- A response (e.g. src/xdebugger_base.cpp:91-107). -/
def response (seq command body : Json) : Json :=
  .obj [(lit "body", body), (lit "command", command), (lit "request_seq", seq), (lit "success", .bool true),
        (lit "type", .str (lit "response"))]

/-- An entry of the list of breakpoints (src/xdebugger_base.cpp:84-85). -/
def breakpointEntry (x : Str × Json) : Json := .obj [(lit "breakpoints", x.2), (lit "source", .str x.1)]

/-- The body of the answer to `debugInfo` (src/xdebugger_base.cpp:96-106). -/
def infoBody (i : Info) (started : Bool) (breakpoints : List Json) (threads : List Int) : Json :=
  .obj [(lit "breakpoints", .arr breakpoints), (lit "exceptionPaths", .arr (i.exceptionPaths.map .str)),
        (lit "hashMethod", .str (lit "Murmur2")), (lit "hashSeed", .int i.hashSeed), (lit "isStarted", .bool started),
        (lit "richRendering", .bool i.rich), (lit "stoppedThreads", .arr (threads.map .int)),
        (lit "tmpFilePrefix", .str i.prefix_), (lit "tmpFileSuffix", .str i.suffix)]

/-- `debug_info_request` (src/xdebugger_base.cpp:76-109). -/
def debugInfo (m : Json) : K (State σ) Json := do
  let bps ← K.read fun s => if s.started then s.breakpoints.map breakpointEntry else []
  let i ← K.readR fun s => d.info s.st
  let seq ← K.ofRes (m.cidx (lit "seq"))
  let command ← K.ofRes (m.cidx (lit "command"))
  K.read fun s => response seq command (infoBody i s.started bps s.threads)

/-- `message["arguments"]["code"].get<std::string>()` with everything caught (src/xdebugger_base.cpp:113-125). -/
def cellCode (m : Json) : Res Str :=
  match (do let a ← m.cidx (lit "arguments"); let c ← a.cidx (lit "code"); c.getStr : Res Str) with
  | .exc _ => .ok []
  | r => r

/-- The two attempts to open the file (src/xdebugger_base.cpp:130-136): it is written unless it can be read. -/
def dump (path code : Str) (s : State σ) : State σ :=
  if (s.files path).isSome && d.readable path then s
  else if d.writable path then { s with files := fun p => if p = path then some code else s.files p }
  else s

/-- `dump_cell_request` (src/xdebugger_base.cpp:111-148). -/
def dumpCell (m : Json) : K (State σ) Json := do
  let code ← K.ofRes (cellCode m)
  let path ← K.readR fun s => d.cellFile code s.st
  K.modify (dump d path code)
  let seq ← K.ofRes (m.cidx (lit "seq"))
  let command ← K.ofRes (m.cidx (lit "command"))
  return response seq command (.obj [(lit "sourcePath", .str path)])

/-- `message["arguments"]["source"]["path"].get<std::string>()`. -/
def sourcePath (m : Json) : Res Str := do
  let a ← m.cidx (lit "arguments")
  let s ← a.cidx (lit "source")
  let p ← s.cidx (lit "path")
  p.getStr

/-- `std::vector<nl::json>(j.begin(), j.end())`. -/
def elements : Json → List Json
  | .arr xs => xs
  | .obj kvs => kvs.map Prod.snd
  | .null => []
  | j => [j]

/-- `m_breakpoint_list.erase(source)`, then `insert` (src/xdebugger_base.cpp:153-156). -/
def eraseSource (source : Str) (l : List (Str × Json)) : List (Str × Json) := l.filter fun x => decide (x.1 ≠ source)

/-- `set_breakpoints_request` (src/xdebugger_base.cpp:150-159). -/
def setBreakpoints (m : Json) : K (State σ) Json := do
  let source ← K.ofRes (sourcePath m)
  K.modify fun s => { s with breakpoints := eraseSource source s.breakpoints }
  let a ← K.ofRes (m.cidx (lit "arguments"))
  let bps ← K.ofRes (a.cidx (lit "breakpoints"))
  K.modify fun s => { s with breakpoints := Json.insertKV source (.arr (elements bps)) s.breakpoints }
  forwardMessage d m

/-- `sourcePath` with everything caught (src/xdebugger_base.cpp:163-175). -/
def sourcePathOrEmpty (m : Json) : Res Str :=
  match sourcePath m with
  | .exc _ => .ok []
  | r => r

/-- The two answers of `source_request` (src/xdebugger_base.cpp:178-202).  The body of the second one, `{{}}`, is an
array holding null according to the overload resolution of the JSON library; nothing depends on it. -/
def sourceReply (content : Option Str) (seq command : Json) : Json :=
  match content with
  | some c => response seq command (.obj [(lit "content", .str c)])
  | none =>
    .obj [(lit "body", .arr [.null]), (lit "command", command), (lit "message", .str (lit "source unavailable")),
          (lit "request_seq", seq), (lit "success", .bool false), (lit "type", .str (lit "response"))]

/-- `source_request` (src/xdebugger_base.cpp:161-203). -/
def source (m : Json) : K (State σ) Json := do
  let path ← K.ofRes (sourcePathOrEmpty m)
  let content ← K.read fun s => if d.readable path then s.files path else none
  let seq ← K.ofRes (m.cidx (lit "seq"))
  let command ← K.ofRes (m.cidx (lit "command"))
  return sourceReply content seq command

/-- `f` applied to the reference `j[k]` of a variable: a missing member is inserted with the value null. -/
def atKey {α : Type} (k : Str) (f : Json → Res (α × Json)) : Json → Res (α × Json)
  | .obj kvs => do
    let (a, v) ← f ((Json.lookup k kvs).getD .null)
    return (a, .obj (Json.insertKV k v kvs))
  | .null => do
    let (a, v) ← f .null
    return (a, .obj [(k, v)])
  | _ => .exc .typeError

/-- `frame["source"]["path"]`: the value and the frame afterwards. -/
def framePath (frame : Json) : Res (Json × Json) :=
  atKey (lit "source") (atKey (lit "path") fun v => .ok (v, v)) frame

/-- The loop over the frames (src/xdebugger_base.cpp:209-216). -/
def cutFrames : List Json → Res (List Json)
  | [] => .ok []
  | x :: xs => do
    let (p, x') ← framePath x
    if isText p "<string>" then return xs
    else return x' :: (← cutFrames xs)

/-- The loop applied to the value of `reply["body"]["stackFrames"]`: indexing anything else than an array throws, but
nothing is indexed if the size is zero. -/
def cutStack : Json → Res (Unit × Json)
  | .arr xs => do return ((), .arr (← cutFrames xs))
  | .null => .ok ((), .null)
  | .obj [] => .ok ((), .obj [])
  | _ => .exc .typeError

/-- src/xdebugger_base.cpp:208-216. -/
def cutReply (reply : Json) : Res Json := do
  let (_, r) ← atKey (lit "body") (atKey (lit "stackFrames") cutStack) reply
  return r

/-- `stack_trace_request` (src/xdebugger_base.cpp:205-227). -/
def stackTrace (m : Json) : K (State σ) Json := do
  let reply ← forwardMessage d m
  K.ofRes (cutReply reply)

/-- `json::size()`. -/
def size : Json → Nat
  | .null => 0
  | .arr xs => xs.length
  | .obj kvs => kvs.length
  | _ => 1

/-- `json::at(i)` with `i` converted to `size_t`. -/
def elemAt (j : Json) (i : Int) : Res Json :=
  match j with
  | .arr xs => if i < 0 then .exc .outOfRange else
    match xs[i.toNat]? with
    | some x => .ok x
    | none => .exc .outOfRange
  | _ => .exc .typeError

/-- `for (int i = start; i < end; ++i) push_back(old.at(i))` with `n` iterations. -/
def pageLoop (old : Json) (i : Int) : Nat → Res (List Json)
  | 0 => .ok []
  | n + 1 => do
    let x ← elemAt old i
    return x :: (← pageLoop old (i + 1) n)

/-- The value of `variables_list`, which is null if nothing was pushed. -/
def pushed : List Json → Json
  | [] => .null
  | xs => .arr xs

/-- `end` (src/xdebugger_base.cpp:241): signed overflow is undefined. -/
def pageEnd (start count : Int) (old : Json) : Res Int :=
  if count = 0 then .ok (wrap32 (size old))
  else if InInt (start + count) then .ok (start + count)
  else .ub "signed overflow in start + count"

/-- src/xdebugger_base.cpp:241-249 on the value of `reply["body"]["variables"]`. -/
def pageList (start count : Int) (old : Json) : Res (Unit × Json) := do
  let e ← pageEnd start count old
  let l ← pageLoop old start (e - start).toNat
  return ((), pushed l)

/-- src/xdebugger_base.cpp:241-249.  The sum is evaluated before `reply` is accessed. -/
def pageReply (start count : Int) (reply : Json) : Res Json :=
  if count ≠ 0 ∧ ¬ InInt (start + count) then .ub "signed overflow in start + count"
  else do
    let (_, r) ← atKey (lit "body") (atKey (lit "variables") (pageList start count)) reply
    return r

/-- `it != end ? it->get<int>() : 0`. -/
def intOr0 (v : Option Json) : Res Int :=
  match v with
  | some j => j.getInt
  | none => .ok 0

/-- src/xdebugger_base.cpp:232-251. -/
def page (arguments reply : Json) : Res Json :=
  if (arguments.find? (lit "start")).isNone && (arguments.find? (lit "count")).isNone then .ok reply
  else do
    let start ← intOr0 (arguments.find? (lit "start"))
    let count ← intOr0 (arguments.find? (lit "count"))
    if start = 0 ∧ count = 0 then return reply else pageReply start count reply

/-- `variables_request` (src/xdebugger_base.cpp:229-253). -/
def variables (m : Json) : K (State σ) Json := do
  let reply ← forwardMessage d m
  let a ← K.ofRes (m.cidx (lit "arguments"))
  K.ofRes (page a reply)

/-! ## Events -/

/-- `int id = message["body"]["threadId"]`. -/
def threadId (m : Json) : Res Int := do
  let b ← m.cidx (lit "body")
  let t ← b.cidx (lit "threadId")
  t.getInt

/-- Insertion in a sorted set. -/
def insertThread (t : Int) : List Int → List Int
  | [] => [t]
  | x :: xs => if t = x then x :: xs else if t < x then t :: x :: xs else x :: insertThread t xs

/-- `continued_event` (src/xdebugger_base.cpp:282-287). -/
def continuedEvent (m : Json) : K (State σ) Unit := do
  let t ← K.ofRes (threadId m)
  K.modify fun s => { s with threads := s.threads.filter fun x => decide (x ≠ t) }

/-- `stopped_event` (src/xdebugger_base.cpp:289-294). -/
def stoppedEvent (m : Json) : K (State σ) Unit := do
  let t ← K.ofRes (threadId m)
  K.modify fun s => { s with threads := insertThread t s.threads }

/-! ## User code -/

/-- The operations. -/
def sem : Op → K (State σ) Val
  | .isStarted => K.read fun s => .json (.bool s.started)
  | .stoppedThreads => K.read fun s => .json (.arr (s.threads.map .int))
  | .forward m => do return .json (← forwardMessage d m)
  | .debugInfo m => do return .json (← debugInfo d m)
  | .dumpCell m => do return .json (← dumpCell d m)
  | .setBreakpoints m => do return .json (← setBreakpoints d m)
  | .source m => do return .json (← source d m)
  | .stackTrace m => do return .json (← stackTrace d m)
  | .variables m => do return .json (← variables d m)
  | .continuedEvent m => do continuedEvent m; return .unit
  | .stoppedEvent m => do stoppedEvent m; return .unit

/-- Execution of a handler of the kernel author. -/
def exec {α : Type} : Prog σ Op α → K (State σ) α
  | .ret a => pure a
  | .throw e => K.throw e
  | .ub w => K.ofRes (.ub w)
  | .hang => K.ofRes .hang
  | .get k => do exec (k (← K.read fun s => s.st))
  | .set st k => do K.modify (fun s => { s with st := st }); exec k
  | .call o k => do exec (k (← (sem d o).attempt))

/-- Calling a request handler. -/
def runHandler (m : Json) : Handler σ → K (State σ) Json
  | .debugInfo => debugInfo d m
  | .dumpCell => dumpCell d m
  | .setBreakpoints => setBreakpoints d m
  | .source => source d m
  | .stackTrace => stackTrace d m
  | .variables => variables d m
  | .user f => exec d (f m)

/-- Calling an event handler. -/
def runEvHandler (m : Json) : EvHandler σ → K (State σ) Unit
  | .continued => continuedEvent m
  | .stopped => stoppedEvent m
  | .user f => exec d (f m)

/-! ## `handle_event` and `process_request_impl` -/

def runEvent (m : Json) : Option (EvHandler σ) → K (State σ) Unit
  | some h => runEvHandler d m h
  | none => pure ()

/-- `handle_event` (src/xdebugger_base.cpp:305-313). -/
def handleEvent (m : Json) : K (State σ) Unit := do
  let name ← K.ofRes (do let e ← m.cidx (lit "event"); e.getStr)
  runEvent d m (d.eventHandler name)

/-- `m_is_started = start(m_header_socket, m_request_socket)` (src/xdebugger_base.cpp:328). -/
def callStart : K (State σ) Bool :=
  K.lift fun s =>
    match d.start s.st with
    | (.ok b, st) => (.ok b, { s with st := st, started := b, out := s.out ++ [.start b] })
    | (.exc e, st) => (.exc e, { s with st := st })
    | (.ub w, st) => (.ub w, { s with st := st })
    | (.hang, st) => (.hang, { s with st := st })

/-- The answer to an `initialize` that failed (src/xdebugger_base.cpp:335-342). -/
def startFailed (seq : Json) : Json :=
  .obj [(lit "command", .str (lit "initialize")), (lit "request_seq", seq), (lit "seq", .int 3),
        (lit "success", .bool false), (lit "type", .str (lit "response"))]

/-- Lines 328-343 of `process_request_impl`. -/
def tryStart (m : Json) : K (State σ) Json := do
  if ← callStart d then return .obj []
  else do
    let seq ← K.ofRes (m.cidx (lit "seq"))
    return startFailed seq

/-- Lines 320-345 of `process_request_impl`: the value of `reply`. -/
def initPart (m command : Json) : K (State σ) Json := do
  if isText command "initialize" then do
    if ← K.read fun s => s.started then return .obj [] else tryStart d m
  else return .obj []

/-- Sending the header and waiting for its acknowledgment (src/xdebugger_base.cpp:354-358). -/
def sendHeader (header : Json) : K (State σ) Unit := do
  let bytes ← K.ofRes (d.J.writeZmq .strict header)
  emit (.header bytes)
  let _ ← recvAck
  return ()

/-- Lines 360-368 of `process_request_impl`. -/
def startedRequest (m : Json) : Option (Handler σ) → K (State σ) Json
  | some h => runHandler d m h
  | none => forwardMessage d m

/-- Lines 352-369 of `process_request_impl`. -/
def whenStarted (header m reply : Json) (name : Str) : K (State σ) Json := do
  if ← K.read fun s => s.started then do
    sendHeader d header
    startedRequest d m (d.requestHandler true name)
  else return reply

/-- Lines 347-369 of `process_request_impl`. -/
def dispatch (header m reply : Json) (name : Str) : Option (Handler σ) → K (State σ) Json
  | some h => runHandler d m h
  | none => whenStarted d header m reply name

/-- `stop(m_header_socket, m_request_socket)` (src/xdebugger_base.cpp:373). -/
def callStop : K (State σ) Unit :=
  K.lift fun s =>
    match d.stop s.st with
    | (.ok (), st) => (.ok (), { s with st := st, out := s.out ++ [.stop] })
    | (.exc e, st) => (.exc e, { s with st := st })
    | (.ub w, st) => (.ub w, { s with st := st })
    | (.hang, st) => (.hang, { s with st := st })

/-- Lines 371-378 of `process_request_impl`. -/
def disconnectPart (command : Json) : K (State σ) Unit := do
  if isText command "disconnect" then do
    callStop d
    K.modify fun s => { s with breakpoints := [] }
    K.modify fun s => { s with threads := [] }
    K.modify fun s => { s with started := false }
  else return ()

/-- `process_request_impl` (src/xdebugger_base.cpp:315-380). -/
def processRequest (header m : Json) : K (State σ) Json := do
  let command ← K.ofRes (m.cidx (lit "command"))
  let reply₀ ← initPart d m command
  let name ← K.ofRes command.getStr
  let reply ← dispatch d header m reply₀ name (d.requestHandler false name)
  disconnectPart d command
  return reply

/-! ## Histories -/

/-- What happens to a debugger: a request of the frontend or an event of the adapter. -/
inductive Call where
  | request (header m : Json)
  | event (m : Json)
  deriving DecidableEq, Repr

/-- The answer to an event is null. -/
def runCall : Call → K (State σ) Json
  | .request header m => processRequest d header m
  | .event m => do handleEvent d m; return .null

/-- One call in a history: the call, `is_started()` before it, and how it ended. -/
structure Step where
  call : Call
  before : Bool
  result : Except Exc Json

/-- Histories: calls that end, with an answer or an exception, one after the other. -/
inductive Hist (s₀ : State σ) : List Step → State σ → Prop
  | nil : Hist s₀ [] s₀
  | snoc {l s c r s'} : Hist s₀ l s → (runCall d c).attempt.run s = (.ok r, s') →
      Hist s₀ (l ++ [⟨c, s.started, r⟩]) s'

/-- The state after construction (src/xdebugger_base.cpp:35-52). -/
def initial (st : σ) (files : Str → Option Str) (replies acks : List Str) : State σ :=
  ⟨st, false, [], [], files, replies, acks, []⟩

end

end Xeus.Dbg
