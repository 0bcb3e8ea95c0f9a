import Verif.Wire.Model

/-!
# Setting up a kernel: the model

Models src/xkernel_configuration.cpp, the authentication part of `xkernel::init` (src/xkernel.cpp:119-132),
src/xmiddleware.cpp, the ports part of the servers' constructors and of `update_config_impl`
(src/xserver_zmq.cpp:23-45, 154-161, src/xserver_zmq_split.cpp:27-36, 88-95), and the registry of interpreters
(src/xmock_interpreter.cpp:13-47).

Simplifications: reading the connection file and parsing it is one step (`read`), which fails with `parse_error` if the file
does not exist or holds no JSON; binding a socket is an external event whose outcome may differ from one attempt to the
next.
-/

namespace Xeus.Setup

open Xeus

/-! ## The connection file -/

/-- `xconfiguration` (include/xeus/xkernel_configuration.hpp:19-30). -/
structure Config where
  transport : Str
  ip : Str
  controlPort : Str
  shellPort : Str
  stdinPort : Str
  iopubPort : Str
  hbPort : Str
  scheme : Str
  key : Str
  deriving DecidableEq, Repr

/-- A configuration that was not read from a file (include/xeus/xkernel_configuration.hpp:21-29). -/
def Config.default : Config := ⟨lit "tcp", lit "127.0.0.1", [], [], [], [], [], lit "hmac-sha256", []⟩

/-- `doc[k].get<std::string>()`. -/
def strAt (doc : Json) (k : String) : Res Str := do
  let v ← doc.idx (lit k)
  v.getStr

/-- `std::to_string(doc[k].get<int>())`. -/
def portAt (doc : Json) (k : String) : Res Str := do
  let v ← doc.idx (lit k)
  let n ← v.getInt
  return intToString n

/-- src/xkernel_configuration.cpp:36-43. -/
def keyOf (doc : Json) (scheme : Str) : Res Str :=
  if scheme ≠ [] then strAt doc "key" else .ok []

/-- `load_configuration` after the document was read (src/xkernel_configuration.cpp:27-45). -/
def configOf (doc : Json) : Res Config := do
  let transport ← strAt doc "transport"
  let ip ← strAt doc "ip"
  let control ← portAt doc "control_port"
  let shell ← portAt doc "shell_port"
  let stdin ← portAt doc "stdin_port"
  let iopub ← portAt doc "iopub_port"
  let hb ← portAt doc "hb_port"
  let scheme ← doc.value (lit "signature_scheme") Json.getStr []
  let key ← keyOf doc scheme
  return ⟨transport, ip, control, shell, stdin, iopub, hb, scheme, key⟩

/-- `load_configuration` (src/xkernel_configuration.cpp:20-46). -/
def loadConfiguration (read : Str → Option Json) (fileName : Str) : Res Config :=
  match read fileName with
  | none => .exc .parseError
  | some doc => configOf doc

/-- The key and the authentication chosen by `xkernel::init` (src/xkernel.cpp:124-130); `guid` are the bytes of the new
identifier. -/
def initAuth (cfg : Config) (guid : Str) : Res (Str × Auth) := do
  let key := if cfg.key.length = 0 then newXguid guid else cfg.key
  let auth ← makeXauthentication cfg.scheme key
  return (key, auth)

/-! ## Sockets -/

/-- `get_controller_end_point`, `get_publisher_end_point` (src/xmiddleware.cpp:18-26). -/
def controllerEndPoint (channel : Str) : Str := lit "inproc://" ++ channel ++ lit "_controller"

def publisherEndPoint : Str := lit "inproc://publisher"

/-- `get_end_point` (src/xmiddleware.cpp:28-34). -/
def getEndPoint (transport ip port : Str) : Str :=
  transport ++ lit "://" ++ ip ++ [if transport = lit "tcp" then 58 else 45] ++ port

/-- A socket: the end points it is bound to and `ZMQ_LAST_ENDPOINT`. -/
structure Socket where
  bound : List Str
  last : Str
  deriving DecidableEq, Repr

def Socket.new : Socket := ⟨[], []⟩

/-- What the surroundings do: the numbers drawn by `distribution(generator)` from a range, and the outcome of the attempts
to bind: the end point then reported, or none. -/
structure World where
  draw : Int → Int → Nat → Int
  net : Nat → Str → Option Str

/-- The loop of `find_free_port_impl` (src/xmiddleware.cpp:54-63) before draw number `i`, with `left` attempts left. -/
def tryPorts (w : World) (draw : Nat → Int) (transport ip : Str) (s : Socket) : (left i : Nat) → Str × Socket
  | 0, _ => ([], s)
  | left + 1, i =>
    match w.net i (getEndPoint transport ip (intToString (draw i))) with
    | some last =>
      (intToString (draw i), { s with bound := s.bound ++ [getEndPoint transport ip (intToString (draw i))], last := last })
    | none => tryPorts w draw transport ip s left (i + 1)

/-- `find_free_port_impl` (src/xmiddleware.cpp:41-66); an empty range is undefined behaviour. -/
def findFreePortImpl (w : World) (transport ip : Str) (s : Socket) (maxTries : Nat) (start stop : Int) : Res (Str × Socket) :=
  if start ≤ stop then .ok (tryPorts w (w.draw start stop) transport ip s maxTries 0)
  else .ub "empty range of a uniform distribution"

/-- `socket.bind` throws if the end point cannot be bound. -/
def bindTo (w : World) (s : Socket) (endPoint : Str) : Res Socket :=
  match w.net 0 endPoint with
  | some last => .ok { s with bound := s.bound ++ [endPoint], last := last }
  | none => .exc .zmq

/-- `init_socket` (src/xmiddleware.cpp:68-83). -/
def initSocket (w : World) (s : Socket) (transport ip port : Str) : Res Socket :=
  if port ≠ [] then bindTo w s (getEndPoint transport ip port)
  else do
    let r ← findFreePortImpl w transport ip s 100 49152 65536
    return r.2

/-- `s.substr(s.find_last_of(c) + 1)`: all of it if there is no `c`. -/
def afterLast (c : UInt8) : Str → Str
  | [] => []
  | x :: xs => if c ∈ xs then afterLast c xs else if x = c then xs else x :: xs

/-- `get_socket_port` (src/xmiddleware.cpp:91-95): the buffer has room for 31 bytes and a final NUL, otherwise
`zmq_getsockopt` fails. -/
def getSocketPort (s : Socket) : Res Str :=
  if s.last.length < 32 then .ok (afterLast 58 s.last) else .exc .zmq

/-- `find_free_port` (src/xmiddleware.cpp:97-106): unbinding an end point that is not bound throws. -/
def findFreePort (w : World) (maxTries : Nat) (start stop : Int) : Res Str := do
  let r ← findFreePortImpl w (lit "tcp") (lit "127.0.0.1") Socket.new maxTries start stop
  if getEndPoint (lit "tcp") (lit "127.0.0.1") r.1 ∈ r.2.bound then return r.1 else .exc .zmq

/-- The five sockets of a server. -/
structure Sockets where
  control : Socket
  shell : Socket
  stdin : Socket
  iopub : Socket
  hb : Socket

/-- The surroundings for each of the five sockets. -/
structure Worlds where
  control : World
  shell : World
  stdin : World
  iopub : World
  hb : World

/-- The ports part of `xserver_zmq::xserver_zmq` (src/xserver_zmq.cpp:30-38, src/xpublisher.cpp:20-32,
src/xheartbeat.cpp:19-28). -/
def openDefault (w : Worlds) (cfg : Config) : Res Sockets := do
  let iopub ← initSocket w.iopub .new cfg.transport cfg.ip cfg.iopubPort
  let hb ← initSocket w.hb .new cfg.transport cfg.ip cfg.hbPort
  let shell ← initSocket w.shell .new cfg.transport cfg.ip cfg.shellPort
  let control ← initSocket w.control .new cfg.transport cfg.ip cfg.controlPort
  let stdin ← initSocket w.stdin .new cfg.transport cfg.ip cfg.stdinPort
  return ⟨control, shell, stdin, iopub, hb⟩

/-- The ports part of `xserver_zmq_split::xserver_zmq_split` (src/xserver_zmq_split.cpp:27-32). -/
def openSplit (w : Worlds) (cfg : Config) : Res Sockets := do
  let control ← initSocket w.control .new cfg.transport cfg.ip cfg.controlPort
  let hb ← initSocket w.hb .new cfg.transport cfg.ip cfg.hbPort
  let iopub ← initSocket w.iopub .new cfg.transport cfg.ip cfg.iopubPort
  let shell ← initSocket w.shell .new cfg.transport cfg.ip cfg.shellPort
  let stdin ← initSocket w.stdin .new cfg.transport cfg.ip cfg.stdinPort
  return ⟨control, shell, stdin, iopub, hb⟩

/-- `update_config_impl` (src/xserver_zmq.cpp:154-161, src/xserver_zmq_split.cpp:88-95). -/
def updateConfig (s : Sockets) (cfg : Config) : Res Config := do
  let control ← getSocketPort s.control
  let shell ← getSocketPort s.shell
  let stdin ← getSocketPort s.stdin
  let iopub ← getSocketPort s.iopub
  let hb ← getSocketPort s.hb
  return { cfg with controlPort := control, shellPort := shell, stdinPort := stdin, iopubPort := iopub, hbPort := hb }

/-! ## The registry of interpreters -/

/-- The variable of `get_registered_interpreter` (src/xmock_interpreter.cpp:19-23); `none` is the null pointer,
interpreters are numbered. -/
abbrev Registry := Option Nat

/-- `register_interpreter` (src/xmock_interpreter.cpp:25-37). -/
def registerInterpreter (r : Registry) (interp : Option Nat) : Bool × Registry :=
  match r with
  | some i => (false, some i)
  | none => (true, interp)

/-- `get_interpreter` (src/xmock_interpreter.cpp:39-46); `none` is the mock interpreter. -/
def getInterpreter (r : Registry) : Option Nat := r

/-- Registrations one after the other: their results and the variable afterwards. -/
def registerAll : Registry → List (Option Nat) → List Bool × Registry
  | r, [] => ([], r)
  | r, i :: is => ((registerInterpreter r i).1 :: (registerAll (registerInterpreter r i).2 is).1,
      (registerAll (registerInterpreter r i).2 is).2)

end Xeus.Setup
