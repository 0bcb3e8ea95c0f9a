import Verif.Kernel.Monad
import Verif.Comm.Model
import Verif.History.Model

/-!
# The kernel core: the model

Models src/xkernel_core.cpp, the non-virtual part of src/xinterpreter.cpp, src/xinput.cpp, the message
dispatching part of src/xcomm.cpp, and what src/xserver_zmq.cpp does inside `send_stdin` and `abort_queue`.

User code (interpreter, debugger, comm callbacks) is an arbitrary program over its own state that calls back
into xeus through the operations of `Op`.

Simplifications: text on `std::cerr` is not modelled; user code does not call `execute_request` of its own
interpreter, register other publishers or input handlers, or modify `comm_manager().comms()` directly;
messages that arrive while `abort_queue` is looping are taken to be in the queue when it starts (for the default server C78
shows that this loses nothing).
-/

namespace Xeus

/-- `channel` (include/xeus/xserver.hpp:25-29). -/
inductive Chan where
  | shell | control
  deriving DecidableEq, Repr

/-! ## What the outside observes -/

/-- Invocations of user code, with their arguments. -/
inductive Call where
  | execute (count : Int) (code : Str) (silent store : Bool) (exprs : Json) (allowStdin : Bool)
  | complete (code : Str) (pos : Int)
  | inspect (code : Str) (pos detail : Int)
  | isComplete (code : Str)
  | kernelInfo
  | shutdown
  | debug (header content : Json)
  /-- callback of a comm target, given the comm at an address and the request -/
  | target (cb addr : Nat) (m : XMessage)
  /-- message or close handler of a comm -/
  | handler (h : Nat) (m : XMessage)
  deriving DecidableEq, Repr

/-- Observable events. -/
inductive Ev where
  /-- handed to the iopub socket by `publish(wire, c)` -/
  | pub (c : Chan) (m : PubMessage) (wire : Multipart)
  /-- sent on the shell or control socket -/
  | reply (c : Chan) (m : XMessage) (wire : Multipart)
  /-- sent on the stdin socket -/
  | stdin (m : XMessage) (wire : Multipart)
  | call (k : Call)
  /-- the user code called last ended with an exception -/
  | threw (e : Exc)
  /-- `p_server->stop()` -/
  | stop
  deriving DecidableEq, Repr

/-! ## Kernel state -/

/-- `m_parent_id[c]` and `m_parent_header[c]`. -/
structure Parent where
  ids : List Str
  header : Json
  deriving DecidableEq, Repr

/-- Operations on comms and targets that publish nothing. -/
inductive CommOp where
  /-- `xcomm(target)` -/
  | new (t : Nat)
  /-- `xcomm(target, id)` -/
  | newId (t : Nat) (id : Str)
  | move (src : Nat)
  | copy (src : Nat)
  | moveAssign (dst src : Nat)
  | copyAssign (dst src : Nat)
  | destroy (a : Nat)
  | onMessage (a : Nat) (h : Option Nat)
  | onClose (a : Nat) (h : Option Nat)
  /-- `id()` -/
  | getId (a : Nat)
  | registerTarget (name : Str) (cb : Option Nat)
  | unregisterTarget (name : Str)
  /-- `target(name)` -/
  | target (name : Str)
  /-- reading `comms()` -/
  | comms
  deriving DecidableEq, Repr

/-- What is done to the comms. -/
inductive CommAct where
  /-- an operation by user code (or the destruction of the local comm of `comm_open`), with the new GUID if one
  was needed -/
  | op (o : CommOp) (g : Str)
  /-- `comm_open` with this content constructed a comm -/
  | opened (content : Json)
  /-- `comm_close` erased this identifier -/
  | closed (id : Str)
  deriving DecidableEq, Repr

/-- State of the kernel, of the user code (`σ`) and of the sockets. -/
structure World (σ : Type) where
  parent : Chan → Parent
  st : σ
  /-- `xinterpreter::m_execution_count` -/
  count : Int
  /-- `xinterpreter::m_input_reply_handler`: the variable captured by the handler registered in
  src/xinput.cpp:23, `none` when no handler is registered -/
  input : Option Str
  hist : Hist
  comm : Comms
  /-- waiting on the shell socket -/
  shellQ : List Multipart
  /-- that will arrive on the stdin socket -/
  stdinQ : List Multipart
  /-- GUIDs drawn so far -/
  guids : Nat
  /-- clock readings so far -/
  clocks : Nat
  out : List Ev
  /-- what has been done to the comms so far; only a record for the benefit of specifications, nothing depends on
  it -/
  acts : List CommAct

/-- What the logger is told. -/
inductive LogEv where
  | received (c : Option Chan) (m : XMessage)
  | sent (c : Option Chan) (m : XMessage)
  | iopub (m : PubMessage)
  deriving DecidableEq, Repr

/-- Everything fixed at construction (src/xkernel_core.cpp:26-49) or supplied by the platform. -/
structure Env where
  C : Crypto
  J : Codec
  auth : Auth
  eh : ErrH
  kernelId : Str
  user : Str
  session : Str
  /-- the bytes of the `n`-th GUID -/
  guid : Nat → Str
  /-- text of the `n`-th clock reading (`iso8601_now`) -/
  now : Nat → Str
  /-- the history manager -/
  H : HistoryManager
  /-- outcome of logging (`none` = stdin channel); must not depend on earlier logging -/
  log : LogEv → Res Unit
  /-- how many messages arriving while the queue is being aborted are aborted, too, if they do not run out before -/
  patience : Nat

/-! ## User code -/

/-- Publishing functions of `xinterpreter` (src/xinterpreter.cpp:88-168). -/
inductive PubOp where
  | stream (name text : Str)
  | display (data metadata transient : Json)
  | updateDisplay (data metadata transient : Json)
  | execInput (code : Str) (count : Int)
  | execResult (count : Int) (data metadata : Json)
  | execError (ename evalue : Str) (traceback : List Str)
  | clearOutput (wait : Bool)
  deriving DecidableEq, Repr

/-- Reading the history through `get_history_manager()`. -/
inductive HistOp where
  | tail (n : Int) (raw output : Bool)
  | range (session start stop : Int) (raw output : Bool)
  | search (pattern : Str) (raw output : Bool) (n : Int) (unique : Bool)
  | request (content : Json)
  deriving DecidableEq, Repr

/-- Operations available to user code. -/
inductive Op where
  | pub (p : PubOp)
  /-- `blocking_input_request` -/
  | input (prompt : Str) (pwd : Bool)
  | parentHeader
  | history (q : HistOp)
  | comm (o : CommOp)
  /-- `open`, `close`, `send` of a comm -/
  | commSend (k : CommMsg) (a : Nat) (metadata data : Json) (buffers : List Frame)
  deriving DecidableEq, Repr

/-- Operations available to the debugger: also `get_control_messenger().send_to_shell`. -/
inductive DOp where
  | base (o : Op)
  | toShell (j : Json)
  deriving DecidableEq, Repr

/-- Results of operations. -/
inductive Val where
  | unit
  | str (s : Str)
  | json (j : Json)
  | addr (a : Nat)
  | comms (l : List (Str × Nat))
  deriving DecidableEq, Repr

/-- User code over the state `σ` calling operations `Ω`: any finite interaction. -/
inductive Prog (σ Ω α : Type) : Type where
  | ret (a : α)
  | throw (e : Exc)
  | ub (why : String)
  | hang
  | get (k : σ → Prog σ Ω α)
  | set (s : σ) (k : Prog σ Ω α)
  | call (o : Ω) (k : Except Exc Val → Prog σ Ω α)

/-- The virtual functions of `xinterpreter`, the debugger, and the callables registered with comms and
targets (by number). -/
structure Interp (σ : Type) where
  execute : Int → Str → Bool → Bool → Json → Bool → Prog σ Op Json
  complete : Str → Int → Prog σ Op Json
  inspect : Str → Int → Int → Prog σ Op Json
  isComplete : Str → Prog σ Op Json
  kernelInfo : Prog σ Op Json
  shutdown : Prog σ Op Unit
  internal : Json → Prog σ Op Json
  target : Nat → Nat → XMessage → Prog σ Op Unit
  handler : Nat → XMessage → Prog σ Op Unit
  /-- `none`: no debugger -/
  debug : Option (Json → Json → Prog σ DOp Json)

section
variable {σ : Type} (env : Env)

/-! ## Primitive effects -/

def emit (e : Ev) : K (World σ) Unit := K.modify fun w => { w with out := w.out ++ [e] }

def logK (e : LogEv) : K (World σ) Unit := K.ofRes (env.log e)

/-- `new_xguid()`. -/
def freshGuid : K (World σ) Str :=
  K.lift fun w => (.ok (newXguid (env.guid w.guids)), { w with guids := w.guids + 1 })

/-- `iso8601_now()`. -/
def isoNow : K (World σ) Str :=
  K.lift fun w => (.ok (env.now w.clocks), { w with clocks := w.clocks + 1 })

/-- `XEUS_KERNEL_PROTOCOL_VERSION` (include/xeus/xeus.hpp:38-48), via `get_protocol_version`. -/
def protocolVersion : Str := lit "5.3"

/-- The object filled by `make_header` (src/xmessage.cpp:251-263). -/
def headerJson (id user session date type : Str) : Json :=
  (((((Json.put .null (lit "msg_id") (.str id)).put (lit "username") (.str user)).put
    (lit "session") (.str session)).put (lit "date") (.str date)).put (lit "msg_type") (.str type)).put
    (lit "version") (.str protocolVersion)

/-- `make_header` (src/xmessage.cpp:251-263). -/
def makeHeader (type : Str) : K (World σ) Json := do
  let id ← freshGuid env
  let date ← isoNow env
  return headerJson id env.user env.session date type

/-- `get_topic` (src/xkernel_core.cpp:470-473). -/
def topic (type : Str) : Str := lit "kernel_core." ++ env.kernelId ++ lit "." ++ type

/-- `get_parent_header` (src/xkernel_core.cpp:496-499). -/
def parentHeader (c : Chan) : K (World σ) Json := K.read fun w => (w.parent c).header

/-- `get_parent_id` (src/xkernel_core.cpp:491-494). -/
def parentIds (c : Chan) : K (World σ) (List Str) := K.read fun w => (w.parent c).ids

/-- `set_parent` (src/xkernel_core.cpp:482-489), the two assignments being separate accesses. -/
def setParent (ids : List Str) (header : Json) (c : Chan) : K (World σ) Unit := do
  K.modify fun w => { w with parent := fun c' => if c' = c then ⟨ids, (w.parent c').header⟩ else w.parent c' }
  K.modify fun w => { w with parent := fun c' => if c' = c then ⟨(w.parent c').ids, header⟩ else w.parent c' }

/-- `publish_message` (src/xkernel_core.cpp:146-163). -/
def publishMessage (type : Str) (metadata content : Json) (buffers : List Frame) (c : Chan) :
    K (World σ) Unit := do
  let header ← makeHeader env type
  let parent ← parentHeader c
  let msg : PubMessage := ⟨topic env type, ⟨header, parent, metadata, content, buffers⟩⟩
  logK env (.iopub msg)
  let wire ← K.ofRes (serializePub env.C env.J env.auth env.eh msg)
  emit (.pub c msg wire)

/-- `publish_status` (src/xkernel_core.cpp:385-390). -/
def publishStatus (status : Str) (c : Chan) : K (World σ) Unit :=
  publishMessage env (lit "status") (.obj []) (Json.put .null (lit "execution_state") (.str status)) [] c

/-- `send_reply` with explicit destination (src/xkernel_core.cpp:418-442). -/
def sendReplyTo (ids : List Str) (type : Str) (parent metadata content : Json) (c : Chan) :
    K (World σ) Unit := do
  let header ← makeHeader env type
  let msg : XMessage := ⟨ids, ⟨header, parent, metadata, content, []⟩⟩
  logK env (.sent (some c) msg)
  let wire ← K.ofRes (serialize env.C env.J env.auth env.eh msg)
  emit (.reply c msg wire)

/-- `send_reply` to the parent (src/xkernel_core.cpp:405-416). -/
def sendReply (type : Str) (metadata content : Json) (c : Chan) : K (World σ) Unit := do
  let ids ← parentIds c
  let parent ← parentHeader c
  sendReplyTo env ids type parent metadata content c

/-- `get_metadata` (src/xkernel_core.cpp:475-480). -/
def getMetadata : K (World σ) Json := do
  let t ← isoNow env
  return Json.put .null (lit "started") (.str t)

/-! ## Standard input -/

/-- `input_reply` (src/xinterpreter.cpp:234-240) with the handler of src/xinput.cpp:23. -/
def inputReply (value : Str) : K (World σ) Unit :=
  K.modify fun w => { w with input := w.input.map fun _ => value }

/-- `dispatch_stdin` (src/xkernel_core.cpp:120-137). -/
def dispatchStdin (wire : Multipart) : K (World σ) Unit :=
  K.catchStd (do
    let msg ← K.ofRes (deserialize env.C env.J env.auth wire)
    logK env (.received none msg)
    let value ← K.ofRes (msg.body.content.value (lit "value") Json.getStr [])
    inputReply value) fun _ => pure ()

/-- The blocking `recv` of `send_stdin_impl` (src/xserver_zmq.cpp:71). -/
def recvStdin : K (World σ) Multipart :=
  K.lift fun w => match w.stdinQ with
    | [] => (.hang, w)
    | f :: r => (.ok f, { w with stdinQ := r })

/-- `xkernel_core::send_stdin` (src/xkernel_core.cpp:165-179) followed by `send_stdin_impl`
(src/xserver_zmq.cpp:67-73). -/
def sendStdin (type : Str) (metadata content : Json) : K (World σ) Unit := do
  let ids ← parentIds .shell
  let header ← makeHeader env type
  let parent ← parentHeader .shell
  let msg : XMessage := ⟨ids, ⟨header, parent, metadata, content, []⟩⟩
  logK env (.sent none msg)
  let wire ← K.ofRes (serialize env.C env.J env.auth env.eh msg)
  emit (.stdin msg wire)
  let answer ← recvStdin
  dispatchStdin env answer

/-- `blocking_input_request` (src/xinput.cpp:17-33) with `input_request`
(src/xinterpreter.cpp:223-232). -/
def blockingInput (prompt : Str) (pwd : Bool) : K (World σ) Str := do
  K.modify fun w => { w with input := some [] }
  let content := (Json.put .null (lit "prompt") (.str prompt)).put (lit "pwd") (.bool pwd)
  sendStdin env (lit "input_request") (.obj []) content
  let value ← K.read fun w => w.input.getD []
  K.modify fun w => { w with input := none }
  return value

/-! ## Operations of user code -/

/-- Message type and content of the publishing functions (src/xinterpreter.cpp:88-168, 250-257). -/
def PubOp.type : PubOp → Str
  | stream _ _ => lit "stream"
  | display _ _ _ => lit "display_data"
  | updateDisplay _ _ _ => lit "update_display_data"
  | execInput _ _ => lit "execute_input"
  | execResult _ _ _ => lit "execute_result"
  | execError _ _ _ => lit "error"
  | clearOutput _ => lit "clear_output"

def PubOp.content : PubOp → Json
  | stream n t => (Json.put .null (lit "name") (.str n)).put (lit "text") (.str t)
  | display d m t => ((Json.put .null (lit "data") d).put (lit "metadata") m).put (lit "transient") t
  | updateDisplay d m t => ((Json.put .null (lit "data") d).put (lit "metadata") m).put (lit "transient") t
  | execInput c n => (Json.put .null (lit "code") (.str c)).put (lit "execution_count") (.int n)
  | execResult n d m =>
    ((Json.put .null (lit "execution_count") (.int n)).put (lit "data") d).put (lit "metadata") m
  | execError n v t => ((Json.put .null (lit "ename") (.str n)).put (lit "evalue") (.str v)).put
      (lit "traceback") (.arr (t.map .str))
  | clearOutput b => Json.put .null (lit "wait") (.bool b)

def publishOp (p : PubOp) : K (World σ) Unit :=
  publishMessage env p.type (.obj []) p.content [] .shell

/-- History queries (`xhistory_manager::get_tail`, `get_range`, `search`, `process_request`). -/
def HistOp.apply (M : HistoryManager) (h : Hist) : HistOp → Res Json
  | tail n raw output => M.tail h n raw output
  | range s a b raw output => M.range h s a b raw output
  | search p raw output n u => M.search h p raw output n u
  | request c => historyRequest M h c

/-- Does the operation draw a new GUID? -/
def CommOp.needsId : CommOp → Bool
  | new _ | copy _ | copyAssign _ _ => true
  | _ => false

/-- Effect of an operation on the comms; `g` is the new GUID if one is needed. -/
def CommOp.apply (g : Str) (s : Comms) : CommOp → Res (Val × Comms)
  | new t => do
    let r ← s.construct t g
    return (.addr r.1, r.2)
  | newId t id =>
    if id.length ≤ 55 then do
      let r ← s.construct t id
      return (.addr r.1, r.2)
    else .ub "xguid capacity exceeded"
  | move a => do
    let r ← s.moveConstruct a
    return (.addr r.1, r.2)
  | copy a => do
    let r ← s.copyConstruct a g
    return (.addr r.1, r.2)
  | moveAssign d a => do
    let s ← s.moveAssign d a
    return (.unit, s)
  | copyAssign d a => do
    let s ← s.copyAssign d a g
    return (.unit, s)
  | destroy a => do
    let s ← s.destroy a
    return (.unit, s)
  | onMessage a h => do
    let s ← s.setOnMessage a h
    return (.unit, s)
  | onClose a h => do
    let s ← s.setOnClose a h
    return (.unit, s)
  | getId a => do
    let c ← s.obj a
    return (.str c.id, s)
  | registerTarget n cb => .ok (.unit, s.registerTarget n cb)
  | unregisterTarget n => .ok (.unit, s.unregisterTarget n)
  | target n => .ok (.addr (s.targetPtr n).1, (s.targetPtr n).2)
  | comms => .ok (.comms s.reg, s)

/-- Run a function on the comms part of the state, recording the act. -/
def onComms {α : Type} (act : CommAct) (f : Comms → Res (α × Comms)) : K (World σ) α :=
  K.lift fun w => match f w.comm with
    | .ok r => (.ok r.1, { w with comm := r.2, acts := w.acts ++ [act] })
    | .exc e => (.exc e, w)
    | .ub s => (.ub s, w)
    | .hang => (.hang, w)

/-- The new GUID for the operations that need one. -/
def commGuid (o : CommOp) : K (World σ) Str := if o.needsId then freshGuid env else pure []

def commOp (o : CommOp) : K (World σ) Val := do
  let g ← commGuid env o
  onComms (.op o g) fun s => o.apply g s

/-- Meaning of the operations. -/
def Op.sem : Op → K (World σ) Val
  | .pub p => do publishOp env p; return .unit
  | .input prompt pwd => do let v ← blockingInput env prompt pwd; return .str v
  | .parentHeader => do let h ← Xeus.parentHeader .shell; return .json h
  | .history q => do let j ← K.readR fun w => q.apply env.H w.hist; return .json j
  | .comm o => commOp env o
  | .commSend k a metadata data buffers => do
    let r ← K.readR fun w => w.comm.outgoing a k data
    publishMessage env r.1 metadata r.2 buffers .shell
    return .unit

/-- Execution of user code. -/
def Prog.exec {Ω α : Type} (sem : Ω → K (World σ) Val) : Prog σ Ω α → K (World σ) α
  | .ret a => pure a
  | .throw e => K.throw e
  | .ub w => K.ofRes (.ub w)
  | .hang => K.ofRes .hang
  | .get k => do let s ← K.read fun w => w.st; (k s).exec sem
  | .set s k => do K.modify fun w => { w with st := s }; k.exec sem
  | .call o k => do let r ← (sem o).attempt; (k r).exec sem

variable (I : Interp σ)

/-- `dispatch_internal` (src/xkernel_core.cpp:139-144) on the text of a request. -/
def dispatchInternal (text : Frame) : K (World σ) Frame := do
  let msg ← K.ofRes (env.J.parseZmq text)
  let rep ← (I.internal msg).exec (Op.sem env)
  K.ofRes (env.J.writeZmq env.eh rep)

/-- `xtrivial_messenger::send_to_shell_impl` (src/xtrivial_messenger.cpp:27-32): `message.dump()` uses the
strict error handler. -/
def sendToShell (j : Json) : K (World σ) Json := do
  let text ← K.ofRes (env.J.writeZmq .strict j)
  let rep ← dispatchInternal env I text
  K.ofRes (env.J.parseZmq rep)

def DOp.sem : DOp → K (World σ) Val
  | .base o => o.sem env
  | .toShell j => do let r ← sendToShell env I j; return .json r

/-- A call of user code by the kernel. -/
def userCall {Ω α : Type} (sem : Ω → K (World σ) Val) (k : Call) (p : Prog σ Ω α) : K (World σ) α := do
  emit (.call k)
  match ← (p.exec sem).attempt with
  | .ok a => return a
  | .error e => do
    emit (.threw e)
    K.throw e

/-! ## Comm traffic -/

/-- `xcomm_manager::comm_open` (src/xcomm.cpp:64-81).  The local `comm` is destroyed on return and on
exceptions.  Calling an empty callback throws `std::bad_function_call`. -/
def commOpen (m : XMessage) : K (World σ) Unit := do
  let r ← onComms (.opened m.body.content) fun s => do
    let x ← s.openLookup m.body.content
    return ((x.1, x.2.1), x.2.2)
  let res ← K.attempt (match r.2 with
    | none => K.throw (.runtime "bad_function_call")
    | some cb => userCall (Op.sem env) (.target cb r.1 m) (I.target cb r.1 m))
  onComms (.op (.destroy r.1) []) fun s => do
    let s ← s.destroy r.1
    return ((), s)
  match res with
  | .ok _ => return ()
  | .error e => K.throw e

/-- `handle_message`, `handle_close` (include/xeus/xcomm.hpp:248-262). -/
def runHandler (h : Option Nat) (m : XMessage) : K (World σ) Unit :=
  match h with
  | none => pure ()
  | some n => userCall (Op.sem env) (.handler n m) (I.handler n m)

/-- `xcomm_manager::comm_close` (src/xcomm.cpp:83-97). -/
def commClose (m : XMessage) : K (World σ) Unit := do
  let r ← K.readR fun w => w.comm.msgLookup m.body.content
  runHandler env I r.2.onClose m
  K.modify fun w =>
    { w with comm := { w.comm with reg := alDel r.1 w.comm.reg }, acts := w.acts ++ [.closed r.1] }

/-- `xcomm_manager::comm_msg` (src/xcomm.cpp:99-112). -/
def commMsg (m : XMessage) : K (World σ) Unit := do
  let r ← K.readR fun w => w.comm.msgLookup m.body.content
  runHandler env I r.2.onMessage m

/-! ## Requests -/

/-- `++m_execution_count`. -/
def incCount : K (World σ) Unit :=
  K.lift fun w => match intAdd w.count 1 with
    | .ok n => (.ok (), { w with count := n })
    | .exc e => (.exc e, w)
    | .ub s => (.ub s, w)
    | .hang => (.hang, w)

/-- The first statement of `xinterpreter::execute_request` (src/xinterpreter.cpp:38-42). -/
def announce (code : Str) (silent : Bool) : K (World σ) Unit :=
  if silent = false then do
    incCount
    let n ← K.read fun w => w.count
    publishOp env (.execInput code n)
  else pure ()

/-- `xinterpreter::execute_request` (src/xinterpreter.cpp:32-51). -/
def interpExecute (code : Str) (silent store : Bool) (exprs : Json) (allow : Bool) : K (World σ) Json := do
  announce env code silent
  let n ← K.read fun w => w.count
  let reply ← userCall (Op.sem env) (.execute n code silent store exprs allow)
    (I.execute n code silent store exprs allow)
  let n ← K.read fun w => w.count
  K.ofRes (reply.set (lit "execution_count") (.int n))

/-- `find_last_of('_')`. -/
def findLastUnderscore (s : Str) : Option Nat :=
  if 95 ∈ s then some (s.length - 1 - s.reverse.idxOf 95) else none

/-- `msg_type.replace(msg_type.find_last_of('_'), 8, "_reply")` (src/xkernel_core.cpp:459):
`std::out_of_range` when there is no underscore. -/
def abortName (t : Str) : Res Str :=
  match findLastUnderscore t with
  | none => .exc .outOfRange
  | some i => .ok (t.take i ++ lit "_reply" ++ t.drop (i + 8))

/-- `abort_request` (src/xkernel_core.cpp:444-468). -/
def abortRequest (wire : Multipart) : K (World σ) Unit := do
  match ← (K.ofRes (deserialize env.C env.J env.auth wire)).attempt with
  | .error e => if e.isStd then pure () else K.throw e
  | .ok msg => do
    let t ← K.ofRes (msg.body.header.value (lit "msg_type") Json.getStr [])
    let t ← K.ofRes (abortName t)
    sendReplyTo env msg.ids t msg.body.header (.obj []) (Json.put .null (lit "status") (.str (lit "error"))) .shell

/-- Non-blocking receive on the shell socket (src/xserver_zmq.cpp:138). -/
def recvShell : K (World σ) (Option Multipart) :=
  K.lift fun w => match w.shellQ with
    | [] => (.ok none, w)
    | f :: r => (.ok (some f), { w with shellQ := r })

/-- The loop of `abort_queue_impl` (src/xserver_zmq.cpp:133-148), at most `n` rounds. -/
def abortLoop : Nat → K (World σ) Unit
  | 0 => pure ()
  | n + 1 => do
    match ← recvShell with
    | none => pure ()
    | some wire => do
      abortRequest env wire
      abortLoop n

/-- `abort_queue_impl` (src/xserver_zmq.cpp:133-148).  The loop has no bound in the code; without arrivals it ends before
this one is reached, with arrivals every finite part of it is covered by some `patience`. -/
def abortQueue : K (World σ) Unit := do
  let n ← K.read fun w => w.shellQ.length
  abortLoop env (n + 1 + env.patience)

/-- `if (!silent && store_history) store_inputs(0, execution_count, code)` (src/xkernel_core.cpp:271-274). -/
def storeK (silent store : Bool) (line : Int) (code : Str) : K (World σ) Unit :=
  if silent = false ∧ store = true then
    K.modify fun w => { w with hist := storeInputs w.hist 0 line code [] }
  else pure ()

/-- `if (!silent && status == "error" && stop_on_error) abort_queue(…)` (src/xkernel_core.cpp:276-280). -/
def abortK (silent : Bool) (status : Str) (stop : Bool) : K (World σ) Unit :=
  if silent = false ∧ status = lit "error" ∧ stop = true then abortQueue env else pure ()

/-- Body of the `try` in `execute_request` (src/xkernel_core.cpp:253-280). -/
def executeBody (m : XMessage) (c : Chan) : K (World σ) Unit := do
  let content := m.body.content
  let code ← K.ofRes (content.value (lit "code") Json.getStr [])
  let silent ← K.ofRes (content.value (lit "silent") Json.getBool false)
  let store ← K.ofRes (content.value (lit "store_history") Json.getBool true)
  let line ← K.ofRes (content.value (lit "execution_count") Json.getInt 1)
  let store := store && !silent
  let exprs ← K.ofRes (content.value (lit "user_expressions") Json.getJson (.obj []))
  let allow ← K.ofRes (content.value (lit "allow_stdin") Json.getBool true)
  let stop ← K.ofRes (content.value (lit "stop_on_error") Json.getBool false)
  let metadata ← getMetadata env
  let reply ← interpExecute env I code silent store exprs allow
  let status ← K.ofRes (reply.value (lit "status") Json.getStr (lit "error"))
  sendReply env (lit "execute_reply") metadata reply c
  storeK silent store line code
  abortK env silent status stop

/-- `execute_request` (src/xkernel_core.cpp:249-287). -/
def executeRequest (m : XMessage) (c : Chan) : K (World σ) Unit :=
  K.catchStd (executeBody env I m c) fun _ => pure ()

/-- `complete_request` (src/xkernel_core.cpp:289-297). -/
def completeRequest (m : XMessage) (c : Chan) : K (World σ) Unit := do
  let code ← K.ofRes (m.body.content.value (lit "code") Json.getStr [])
  let pos ← K.ofRes (m.body.content.value (lit "cursor_pos") Json.getInt (-1))
  let reply ← userCall (Op.sem env) (.complete code pos) (I.complete code pos)
  sendReply env (lit "complete_reply") (.obj []) reply c

/-- `inspect_request` (src/xkernel_core.cpp:299-308). -/
def inspectRequest (m : XMessage) (c : Chan) : K (World σ) Unit := do
  let code ← K.ofRes (m.body.content.value (lit "code") Json.getStr [])
  let pos ← K.ofRes (m.body.content.value (lit "cursor_pos") Json.getInt (-1))
  let detail ← K.ofRes (m.body.content.value (lit "detail_level") Json.getInt 0)
  let reply ← userCall (Op.sem env) (.inspect code pos detail) (I.inspect code pos detail)
  sendReply env (lit "inspect_reply") (.obj []) reply c

/-- `history_request` (src/xkernel_core.cpp:310-317). -/
def historyReq (m : XMessage) (c : Chan) : K (World σ) Unit := do
  let h ← K.readR fun w => historyRequest env.H w.hist m.body.content
  sendReply env (lit "history_reply") (.obj []) h c

/-- `is_complete_request` (src/xkernel_core.cpp:319-326). -/
def isCompleteRequest (m : XMessage) (c : Chan) : K (World σ) Unit := do
  let code ← K.ofRes (m.body.content.value (lit "code") Json.getStr [])
  let reply ← userCall (Op.sem env) (.isComplete code) (I.isComplete code)
  sendReply env (lit "is_complete_reply") (.obj []) reply c

/-- The object built by the loop of `comm_info_request` (src/xkernel_core.cpp:332-342). -/
def commsJson (wanted : Str) : List (Str × Str) → Json → Json
  | [], acc => acc
  | (id, name) :: r, acc =>
    commsJson wanted r
      (if wanted = [] ∨ name = wanted then acc.put id (Json.put .null (lit "target_name") (.str name)) else acc)

/-- `comm_info_request` (src/xkernel_core.cpp:328-347). -/
def commInfoRequest (m : XMessage) (c : Chan) : K (World σ) Unit := do
  let wanted ← K.ofRes (if m.body.content.isNull then .ok []
    else m.body.content.value (lit "target_name") Json.getStr [])
  let l ← K.readR fun w => w.comm.listing w.comm.reg
  let reply := (Json.put .null (lit "comms") (commsJson wanted l (.obj []))).put (lit "status") (.str (lit "ok"))
  sendReply env (lit "comm_info_reply") (.obj []) reply c

/-- `kernel_info_request` (src/xkernel_core.cpp:349-354). -/
def kernelInfoRequest (c : Chan) : K (World σ) Unit := do
  let reply ← userCall (Op.sem env) .kernelInfo I.kernelInfo
  let reply ← K.ofRes (reply.set (lit "protocol_version") (.str protocolVersion))
  sendReply env (lit "kernel_info_reply") (.obj []) reply c

/-- `shutdown_request` (src/xkernel_core.cpp:356-366). -/
def shutdownRequest (m : XMessage) (c : Chan) : K (World σ) Unit := do
  let restart ← K.ofRes (m.body.content.value (lit "restart") Json.getBool false)
  userCall (Op.sem env) .shutdown I.shutdown
  emit .stop
  let reply := Json.put .null (lit "restart") (.bool restart)
  publishMessage env (lit "shutdown") (.obj []) reply [] .control
  sendReply env (lit "shutdown_reply") (.obj []) reply c

/-- `interrupt_request` (src/xkernel_core.cpp:368-373). -/
def interruptRequest (c : Chan) : K (World σ) Unit := do
  publishMessage env (lit "interrupt") (.obj []) (.obj []) [] .control
  sendReply env (lit "interrupt_reply") (.obj []) (.obj []) c

/-- `debug_request` (src/xkernel_core.cpp:375-383). -/
def debugRequest (m : XMessage) (c : Chan) : K (World σ) Unit :=
  match I.debug with
  | none => pure ()
  | some d => do
    let reply ← userCall (DOp.sem env I) (.debug m.body.header m.body.content) (d m.body.header m.body.content)
    let metadata ← getMetadata env
    sendReply env (lit "debug_reply") metadata reply c

/-! ## Dispatch -/

/-- The handlers (src/xkernel_core.cpp:51-63). -/
inductive Req where
  | execute | complete | inspect | history | isComplete | commInfo | commOpen | commClose | commMsg
  | kernelInfo | shutdown | interrupt | debug
  deriving DecidableEq, Repr

/-- `m_handler` (src/xkernel_core.cpp:51-63). -/
def handlerTable : List (Str × Req) :=
  [(lit "execute_request", .execute), (lit "complete_request", .complete),
   (lit "inspect_request", .inspect), (lit "history_request", .history),
   (lit "is_complete_request", .isComplete), (lit "comm_info_request", .commInfo),
   (lit "comm_open", .commOpen), (lit "comm_close", .commClose), (lit "comm_msg", .commMsg),
   (lit "kernel_info_request", .kernelInfo), (lit "shutdown_request", .shutdown),
   (lit "interrupt_request", .interrupt), (lit "debug_request", .debug)]

/-- `get_handler` (src/xkernel_core.cpp:242-247). -/
def getHandler (t : Str) : Option Req := alGet t handlerTable

/-- `(this->*handler)(msg, c)`. -/
def handle (r : Req) (m : XMessage) (c : Chan) : K (World σ) Unit :=
  match r with
  | .execute => executeRequest env I m c
  | .complete => completeRequest env I m c
  | .inspect => inspectRequest env I m c
  | .history => historyReq env m c
  | .isComplete => isCompleteRequest env I m c
  | .commInfo => commInfoRequest env m c
  | .commOpen => commOpen env I m
  | .commClose => commClose env I m
  | .commMsg => commMsg env I m
  | .kernelInfo => kernelInfoRequest env I c
  | .shutdown => shutdownRequest env I m c
  | .interrupt => interruptRequest env c
  | .debug => debugRequest env I m c

/-- Handling with the surrounding `try`/`catch` (src/xkernel_core.cpp:221-237). -/
def handleType (t : Str) (m : XMessage) (c : Chan) : K (World σ) Unit :=
  match getHandler t with
  | none => pure ()
  | some r => K.catchStd (handle env I r m c) fun _ => pure ()

/-- What `dispatch` does with a decoded message (src/xkernel_core.cpp:215-239). -/
def dispatchMsg (m : XMessage) (c : Chan) : K (World σ) Unit := do
  logK env (.received (some c) m)
  setParent m.ids m.body.header c
  publishStatus env (lit "busy") c
  let t ← K.ofRes (m.body.header.value (lit "msg_type") Json.getStr [])
  handleType env I t m c
  publishStatus env (lit "idle") c

/-- `dispatch` (src/xkernel_core.cpp:201-240). -/
def dispatch (wire : Multipart) (c : Chan) : K (World σ) Unit := do
  match ← (K.ofRes (deserialize env.C env.J env.auth wire)).attempt with
  | .error e => if e.isStd then pure () else K.throw e
  | .ok msg => dispatchMsg env I msg c

/-- `build_start_msg` (src/xkernel_core.cpp:91-108) followed by its publication by the server
(src/xserver_zmq.cpp:87). -/
def start : K (World σ) Unit := do
  let header ← makeHeader env (lit "status")
  let msg : PubMessage := ⟨lit "kernel_core." ++ env.kernelId ++ lit ".status",
    ⟨header, .obj [], .obj [], Json.put .null (lit "execution_state") (.str (lit "starting")), []⟩⟩
  let wire ← K.ofRes (serializePub env.C env.J env.auth env.eh msg)
  emit (.pub .shell msg wire)

/-- Messages handled one after the other; an exception that leaves `dispatch` ends the kernel. -/
def session : List (Multipart × Chan) → K (World σ) Unit
  | [] => pure ()
  | x :: r => do
    dispatch env I x.1 x.2
    session r

/-- `configure` (src/xinterpreter.cpp:27-30), called at the end of `xkernel::init` (src/xkernel.cpp:163) for user code
`conf`, which may also use `get_control_messenger()`. -/
def configure (conf : Prog σ DOp Unit) : K (World σ) Unit := conf.exec (DOp.sem env I)

/-- Everything a kernel does: the interpreter is configured, the start message is sent, and then the requests are handled, one
after the other.  If configuring fails, there is no kernel to start. -/
def life (conf : Prog σ DOp Unit) (xs : List (Multipart × Chan)) : K (World σ) Unit := do
  configure env I conf
  start env
  session env I xs

end

/-- The state at construction (src/xkernel_core.cpp:46-47, src/xinterpreter.cpp:22-25). -/
def World.initial {σ : Type} (s : σ) (shellQ stdinQ : List Multipart) : World σ :=
  { parent := fun _ => ⟨[], .obj []⟩, st := s, count := 0, input := none, hist := [], comm := Comms.empty,
    shellQ := shellQ, stdinQ := stdinQ, guids := 0, clocks := 0, out := [], acts := [] }

end Xeus
