import Verif.Setup.Model
import Verif.Kernel.Model

/-!
# Construction and destruction of a kernel: the model

Models src/xkernel.cpp:73-177 (constructors, `init`, `get_config`), the member order of `xkernel`
(include/xeus/xkernel.hpp:77-92), the bindings made by the constructor of `xkernel_core` (src/xkernel_core.cpp:65-83), the slots
of `xserver` (src/xserver.cpp:65-104) and of `xinterpreter` (src/xinterpreter.cpp:88-232, include/xeus/xinterpreter.hpp:128-147),
and the builders of servers (src/xserver.cpp:106-119).

A slot holds a callable or nothing.  Calling an empty `std::function` throws `std::bad_function_call`; the pointers of an
interpreter are not initialised.  The pointers given to the constructors (interpreter, history manager, builders) are not null.
The kernel has not been started: what its own threads do when the context goes away is not modelled.
-/

namespace Xeus.Build

open Xeus

variable {σ : Type}

/-! ## Slots -/

/-- A core: its constants, and the user code it calls. -/
structure Core (σ : Type) where
  env : Env
  I : Interp σ

/-- The member functions that are bound to the listeners of a server. -/
inductive Method where
  | dispatchShell | dispatchControl | dispatchStdin
  deriving DecidableEq, Repr

/-- `std::bind(&xkernel_core::…, this, _1)`. -/
structure Listener (σ : Type) where
  method : Method
  core : Core σ

/-- Calling it (src/xkernel_core.cpp:110-118, 120-137). -/
def Listener.call (f : Listener σ) (q : Multipart) : K (World σ) Unit :=
  match f.method with
  | .dispatchShell => dispatch f.core.env f.core.I q .shell
  | .dispatchControl => dispatch f.core.env f.core.I q .control
  | .dispatchStdin => dispatchStdin f.core.env q

/-- The listeners of a server (include/xeus/xserver.hpp:86-89); the internal one is always
`xkernel_core::dispatch_internal`. -/
structure Listeners (σ : Type) where
  shell : Option (Listener σ) := none
  control : Option (Listener σ) := none
  stdin : Option (Listener σ) := none
  internal : Option (Core σ) := none

/-- Calling a `std::function`. -/
def invoke {φ α : Type} (f : Option φ) (call : φ → K (World σ) α) : K (World σ) α :=
  match f with
  | none => K.throw (.runtime "bad_function_call")
  | some f => call f

/-- `notify_shell_listener` (src/xserver.cpp:85-88). -/
def notifyShell (l : Listeners σ) (q : Multipart) : K (World σ) Unit := invoke l.shell (·.call q)

/-- `notify_control_listener` (src/xserver.cpp:90-93). -/
def notifyControl (l : Listeners σ) (q : Multipart) : K (World σ) Unit := invoke l.control (·.call q)

/-- `notify_stdin_listener` (src/xserver.cpp:95-98). -/
def notifyStdin (l : Listeners σ) (q : Multipart) : K (World σ) Unit := invoke l.stdin (·.call q)

/-- `notify_internal_listener` (src/xserver.cpp:100-103). -/
def notifyInternal (l : Listeners σ) (text : Frame) : K (World σ) Frame :=
  invoke l.internal fun c => dispatchInternal c.env c.I text

/-- What an interpreter knows of its kernel (include/xeus/xinterpreter.hpp:128-135). -/
structure Bindings (σ : Type) where
  /-- `m_publisher`: the function of src/xkernel_core.cpp:72-79 captures the core and names a channel -/
  publisher : Option (Core σ × Chan) := none
  /-- `m_stdin`: `xkernel_core::send_stdin` of a core -/
  stdin : Option (Core σ) := none
  /-- `p_comm_manager`: the comm manager of a core -/
  comms : Option (Core σ) := none
  /-- `m_parent_header`: the function of src/xkernel_core.cpp:82-84 names a channel -/
  parentHeader : Option Chan := none
  /-- was `p_messenger` set? -/
  messenger : Bool := false
  /-- was `p_history` set? -/
  history : Bool := false

/-- What a server is to the kernel. -/
structure Server where
  /-- `update_config` -/
  update : Setup.Config → Res Setup.Config
  /-- is the messenger an `xzmq_messenger`? -/
  remote : Bool
  /-- sockets it holds open in the context of the kernel -/
  held : Nat

/-- What a debugger is to the kernel. -/
structure Debugger (σ : Type) where
  process : Json → Json → Prog σ DOp Json
  /-- sockets it holds open in the context of the kernel -/
  held : Nat

/-- `make_xserver` (src/xserver.cpp:106-109): six sockets of the server (src/xserver_zmq.cpp:24-29), three of the publisher
(src/xpublisher.cpp:20-25), two of the heartbeat (src/xheartbeat.cpp:19-22). -/
def makeXserver (w : Setup.Worlds) (cfg : Setup.Config) : Res Server := do
  let s ← Setup.openDefault w cfg
  return ⟨Setup.updateConfig s, false, 11⟩

/-- `make_xserver_control_main`, `make_xserver_shell_main` (src/xserver.cpp:111-119): two sockets of the control channel
(src/xcontrol.cpp:20-26), three of its messenger (src/xzmq_messenger.cpp:20-25), four of the shell channel
(src/xshell.cpp:19-29), and those of publisher and heartbeat. -/
def makeXserverSplit (w : Setup.Worlds) (cfg : Setup.Config) : Res Server := do
  let s ← Setup.openSplit w cfg
  return ⟨Setup.updateConfig s, true, 14⟩

/-- `make_null_debugger` (src/xdebugger.cpp:45-52). -/
def makeNullDebugger (_ : Setup.Config) (_ _ : Str) (_ : Json) : Res (Option (Debugger σ)) := .ok none

/-! ## What user code can do with the slots -/

/-- `xkernel_core::send_stdin` followed by `send_stdin_impl`, which notifies the listener (src/xkernel_core.cpp:165-179,
src/xserver_zmq.cpp:67-73). -/
def sendStdin (env : Env) (l : Listeners σ) (type : Str) (metadata content : Json) : K (World σ) Unit := do
  let ids ← parentIds .shell
  let header ← makeHeader env type
  let parent ← parentHeader .shell
  let msg : XMessage := ⟨ids, ⟨header, parent, metadata, content, []⟩⟩
  logK env (.sent none msg)
  let wire ← K.ofRes (serialize env.C env.J env.auth env.eh msg)
  emit (.stdin msg wire)
  let answer ← recvStdin
  notifyStdin l answer

/-- `blocking_input_request` (src/xinput.cpp:17-33) with `input_request` (src/xinterpreter.cpp:223-232). -/
def blockingInput (l : Listeners σ) (b : Bindings σ) (prompt : Str) (pwd : Bool) : K (World σ) Str := do
  K.modify fun w => { w with input := some [] }
  let content := (Json.put .null (lit "prompt") (.str prompt)).put (lit "pwd") (.bool pwd)
  match b.stdin with
  | some core => sendStdin core.env l (lit "input_request") (.obj []) content
  | none => pure ()
  let value ← K.read fun w => w.input.getD []
  K.modify fun w => { w with input := none }
  return value

/-- Operations of user code, through the slots. -/
def via (M : HistoryManager) (l : Listeners σ) (b : Bindings σ) : Op → K (World σ) Val
  -- src/xinterpreter.cpp:88-168
  | .pub p =>
    match b.publisher with
    | some (core, c) => do
      publishMessage core.env p.type (.obj []) p.content [] c
      return .unit
    | none => return .unit
  | .input prompt pwd => do
    let v ← blockingInput l b prompt pwd
    return .str v
  -- src/xinterpreter.cpp:190-201
  | .parentHeader =>
    match b.parentHeader with
    | some c => do
      let h ← parentHeader c
      return .json h
    | none => return .json (.obj [])
  -- src/xinterpreter.cpp:213-216
  | .history q =>
    if b.history then do
      let j ← K.readR fun w => q.apply M w.hist
      return .json j
    else K.ofRes (.ub "uninitialised pointer")
  -- include/xeus/xinterpreter.hpp:138-146
  | .comm o =>
    match b.comms with
    | some core => commOp core.env o
    | none => K.ofRes (.ub "uninitialised pointer")
  -- include/xeus/xcomm.hpp:264-287, src/xcomm.cpp:18-28
  | .commSend k a metadata data buffers =>
    match b.comms with
    | some core => do
      let r ← K.readR fun w => w.comm.outgoing a k data
      publishMessage core.env r.1 metadata r.2 buffers .shell
      return .unit
    | none => K.ofRes (.ub "uninitialised pointer")

/-- `send_to_shell` (src/xtrivial_messenger.cpp:27-32, src/xzmq_messenger.cpp:58-65): the remote messenger waits for the shell
thread, which does not run before the start. -/
def sendToShell (J : Codec) (s : Server) (l : Listeners σ) (j : Json) : K (World σ) Json := do
  let text ← K.ofRes (J.writeZmq .strict j)
  if s.remote then K.ofRes .hang
  else do
    let rep ← notifyInternal l text
    K.ofRes (J.parseZmq rep)

/-- The same with `get_control_messenger()` (src/xinterpreter.cpp:218-221). -/
def viaAll (J : Codec) (M : HistoryManager) (s : Server) (l : Listeners σ) (b : Bindings σ) : DOp → K (World σ) Val
  | .base o => via M l b o
  | .toShell j =>
    if b.messenger then do
      let r ← sendToShell J s l j
      return .json r
    else K.ofRes (.ub "uninitialised pointer")

/-! ## Construction -/

/-- What the platform supplies. -/
structure Platform where
  C : Crypto
  J : Codec
  R : RegexLib
  /-- the bytes of the `n`-th GUID -/
  guid : Nat → Str
  now : Nat → Str
  /-- `std::getenv("XEUS_LOG") != nullptr` -/
  xeusLog : Bool
  patience : Nat

/-- The arguments of the constructors (src/xkernel.cpp:73-111); `config` is missing for the second one. -/
structure Given (σ : Type) where
  config : Option Setup.Config
  user : Str
  interp : Interp σ
  /-- the interpreter's state, its `configure_impl` and its destructor -/
  st : σ
  conf : Prog σ DOp Unit
  fin : Prog σ Op Unit
  /-- the history manager; `none` for the default, `make_in_memory_history_manager()` (include/xeus/xkernel.hpp:51, 60) -/
  manager : Option HistoryManager := none
  logger : Option (LogEv → Res Unit)
  server : Setup.Config → Res Server
  debugger : Setup.Config → Str → Str → Json → Res (Option (Debugger σ))
  debuggerConfig : Json
  eh : ErrH
  /-- what clients send on stdin -/
  stdinQ : List Multipart := []

/-- The history manager of the kernel. -/
def managerOf (p : Platform) (g : Given σ) : HistoryManager := g.manager.getD (inMemory p.R)

/-- Calls of the builders, with their arguments. -/
inductive BuilderCall where
  | server (c : Setup.Config)
  | debugger (c : Setup.Config) (user session : Str) (config : Json)
  deriving DecidableEq

/-- A kernel, perhaps under construction. -/
structure Kern (σ : Type) where
  /-- `m_config` -/
  config : Setup.Config
  kernelId : Str := []
  sessionId : Str := []
  /-- `p_logger`; `none` if it is null -/
  logger : Option (LogEv → Res Unit)
  server : Option Server := none
  listeners : Listeners σ := {}
  debugger : Option (Debugger σ) := none
  /-- was the messenger of the debugger set? -/
  debuggerMessenger : Bool := false
  /-- `p_core` -/
  core : Option (Core σ) := none
  bindings : Bindings σ := {}
  w : World σ
  /-- builders called so far -/
  calls : List BuilderCall := []

/-- Before `init` (src/xkernel.cpp:81-90, 102-110). -/
def Kern.new (g : Given σ) : Kern σ :=
  { config := g.config.getD .default, logger := g.logger, w := World.initial g.st [] g.stdinQ }

/-- `xlogger_nolog`. -/
def nolog : LogEv → Res Unit := fun _ => .ok ()

/-- The constants of the core (src/xkernel_core.cpp:36-49); the GUIDs are those not yet drawn. -/
def coreEnv (p : Platform) (g : Given σ) (k : Kern σ) (auth : Auth) (drawn : Nat) : Env :=
  { C := p.C, J := p.J, auth := auth, eh := g.eh, kernelId := k.kernelId, user := g.user, session := k.sessionId,
    guid := fun n => p.guid (n + drawn), now := p.now, H := managerOf p g, log := k.logger.getD nolog, patience := p.patience }

/-- The interpreter of a kernel, and its debugger. -/
def withDebugger (I : Interp σ) (d : Option (Debugger σ)) : Interp σ := { I with debug := d.map (·.process) }

/-- The bindings made by the constructor of the core (src/xkernel_core.cpp:65-84). -/
def bindCore (core : Core σ) (k : Kern σ) : Kern σ :=
  { k with
    core := some core
    listeners :=
      { shell := some ⟨.dispatchShell, core⟩
        control := some ⟨.dispatchControl, core⟩
        stdin := some ⟨.dispatchStdin, core⟩
        internal := some core }
    bindings := { k.bindings with
      publisher := some (core, .shell)
      stdin := some core
      comms := some core
      parentHeader := some .shell } }

/-- A call of a builder. -/
def called (c : BuilderCall) : K (Kern σ) Unit := K.modify fun k => { k with calls := k.calls ++ [c] }

/-- User code running in the kernel. -/
def inKernel {α : Type} (m : Kern σ → K (World σ) α) : K (Kern σ) α :=
  K.lift fun k => (((m k).run k.w).1, { k with w := ((m k).run k.w).2 })

/-- `xkernel::init` (src/xkernel.cpp:117-164). -/
def init (p : Platform) (g : Given σ) : K (Kern σ) Unit := do
  K.modify fun k => { k with kernelId := newXguid (p.guid 0) }
  K.modify fun k => { k with sessionId := newXguid (p.guid 1) }
  let given ← K.read Kern.config
  let r ← K.ofRes (Setup.initAuth given (p.guid 2))
  K.modify fun k => { k with config := { k.config with key := r.1 } }
  K.modify fun k => { k with logger := if k.logger.isNone || !p.xeusLog then some nolog else k.logger }
  let cfg ← K.read Kern.config
  called (.server cfg)
  let s ← K.ofRes (g.server cfg)
  K.modify fun k => { k with server := some s }
  let shown ← K.ofRes (s.update cfg)
  K.modify fun k => { k with config := shown }
  let k ← K.read id
  called (.debugger k.config g.user k.sessionId g.debuggerConfig)
  let d ← K.ofRes (g.debugger k.config g.user k.sessionId g.debuggerConfig)
  K.modify fun k => { k with debugger := d }
  K.modify (bindCore ⟨coreEnv p g k r.2 (if given.key = [] then 3 else 2), withDebugger g.interp d⟩)
  if d.isSome then K.modify fun k => { k with debuggerMessenger := true }
  K.modify fun k => { k with bindings := { k.bindings with messenger := true } }
  K.modify fun k => { k with bindings := { k.bindings with history := true } }
  inKernel fun k => g.conf.exec (viaAll p.J (managerOf p g) s k.listeners k.bindings)

/-! ## Destruction -/

/-- Sockets still open in the context. -/
def heldIn (k : Kern σ) : Nat :=
  (match k.server with | some s => s.held | none => 0) + (match k.debugger with | some d => d.held | none => 0)

/-- Operations of the destructor of the interpreter, after core and history manager are gone: callables bound to the core
dangle. -/
def afterwards (b : Bindings σ) : Op → K (World σ) Val
  | .pub _ => if b.publisher.isSome then K.ofRes (.ub "core was destroyed") else pure .unit
  | .input _ _ => if b.stdin.isSome then K.ofRes (.ub "core was destroyed") else return .str []
  | .parentHeader => if b.parentHeader.isSome then K.ofRes (.ub "core was destroyed") else return .json (.obj [])
  | .history _ => K.ofRes (.ub "history manager was destroyed")
  | .comm _ => K.ofRes (.ub "core was destroyed")
  | .commSend .. => K.ofRes (.ub "core was destroyed")

/-- The destructor: members are destroyed in the reverse order of their declaration (include/xeus/xkernel.hpp:77-92): the core,
the context, which waits until no socket is open in it, then debugger, server, logger, history manager and interpreter. -/
def destroy (g : Given σ) (k : Kern σ) : Res Unit :=
  if 0 < heldIn k then .hang else ((g.fin.exec (afterwards k.bindings)).run k.w).1

/-- Calling a constructor (src/xkernel.cpp:73-112): if `init` throws, the members are destroyed before the exception is passed
on. -/
def construct (p : Platform) (g : Given σ) : Res (Kern σ) :=
  match (init p g).run (Kern.new g) with
  | (.ok (), k) => .ok k
  | (.exc e, k) => match destroy g k with
    | .ok () => .exc e
    | .exc e' => .exc e'
    | .ub s => .ub s
    | .hang => .hang
  | (.ub s, _) => .ub s
  | (.hang, _) => .hang

end Xeus.Build
