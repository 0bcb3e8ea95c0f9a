import Verif.Dap.Framing

/-!
# The stream socket of the debug adapter client: the model

Models `init_tcp_socket`, `get_tcp_id` and `append_tcp_message` of src/xdap_tcp_client.cpp (179-201, 312-322), and `handle_tcp_socket`
(255-310), at the level of the message parts that `m_tcp_socket` sends and receives.

A ZeroMQ stream socket delivers every piece of bytes as two parts, the identity of the peer it comes from and the bytes; when a
connection is made or ends the bytes are empty.  `recv` receives one part.  The list of parts holds everything that will ever
arrive: running out of parts means waiting for ever.

Simplifications: binding and connecting succeed; that sending to a peer that is gone fails is not modelled.
-/

namespace Xeus

/-- `dap_tcp_type` (include/xeus/xdap_tcp_client.hpp:22-26). -/
inductive TcpType where
  | client
  | server
  deriving DecidableEq, Repr

/-- `m_tcp_socket.recv(part)`. -/
def recvPart : List Str → Option (Str × List Str)
  | [] => none
  | p :: ps => some (p, ps)

/-- `init_tcp_socket` (src/xdap_tcp_client.cpp:185-201): `m_socket_id` and the parts left.  `own` is the identity ZeroMQ gives to
the connection made by `connect`. -/
def initTcp (type : TcpType) (own : Str) (ps : List Str) : Option (Str × List Str) :=
  match type with
  | .client => some (own, ps)
  | .server => do
    let (id, ps) ← recvPart ps
    let (_, ps) ← recvPart ps
    return (id, ps)

/-- `append_tcp_message` (src/xdap_tcp_client.cpp:312-322). -/
def appendTcp (buf : Str) (ps : List Str) : Option (Str × List Str) := do
  let (_, ps) ← recvPart ps
  let (content, ps) ← recvPart ps
  return (buf ++ content, ps)

/-- The two sends of a message to the adapter (src/xdap_tcp_client.cpp:79-80, 237-238, 250-251). -/
def sendTcp (id : Str) (bytes : Str) (sent : List Str) : List Str := sent ++ [id] ++ [bytes]

/-- `awaitFind` with `append_tcp_message`.  The counter, which starts above the number of parts, never runs out. -/
def awaitFindP (pat : Str) (hint : Nat) : Nat → Option Nat → Str → List Str → Option (Nat × Str × List Str)
  | _, some p, buf, ps => some (p, buf, ps)
  | 0, none, _, _ => none
  | n + 1, none, buf, ps =>
    match appendTcp buf ps with
    | none => none
    | some (buf, ps) => awaitFindP pat hint n (findFrom buf pat hint) buf ps

/-- `awaitSize` with `append_tcp_message`. -/
def awaitSizeP (pos size : Nat) : Nat → Str → List Str → Option (Str × List Str)
  | 0, _, _ => none
  | n + 1, buf, ps =>
    if buf.length - pos < size then
      match appendTcp buf ps with
      | none => none
      | some (buf, ps) => awaitSizeP pos size n buf ps
    else some (buf, ps)

/-- One iteration of the outer loop (src/xdap_tcp_client.cpp:267-309), as `readIter`. -/
def readIterP (next : Option Nat → Nat → Str → List Str → List Str → Read)
    (headerPos : Option Nat) (hint : Nat) (buf : Str) (ps q : List Str) : Read :=
  match awaitFindP dapHeader hint (ps.length + 1) headerPos buf ps with
  | none => .blocked
  | some (hp, buf, ps) =>
    match awaitFindP dapSeparator (hp + 16) (ps.length + 1) (findFrom buf dapSeparator (hp + 16)) buf ps with
    | none => .blocked
    | some (sp, buf, ps) =>
      match stoull (substr buf (hp + 16) sp) with
      | .ok size =>
        match awaitSizeP (sp + 4) size (ps.length + 1) buf ps with
        | none => .blocked
        | some (buf, ps) =>
          if buf.length - (sp + 4) = size then .got (q ++ [buf.drop (sp + 4)]) ps
          else next (findFrom buf dapHeader (sp + 4 + size)) (sp + 4 + size) buf ps
            (q ++ [substr buf (sp + 4) size])
      | .exc e => .thrown e q ps
      | _ => .blocked

/-- The outer loop, as `readLoop`. -/
def readLoopP : Nat → Option Nat → Nat → Str → List Str → List Str → Read
  | 0, _, _, _, _, _ => .endless
  | n + 1, headerPos, hint, buf, ps, q => readIterP (readLoopP n) headerPos hint buf ps q

/-- `handle_tcp_socket` (src/xdap_tcp_client.cpp:255-310) on the parts: the queue afterwards and the parts not received.  The counter is
above the number of bytes that can ever be in the buffer. -/
def handleTcpP (q ps : List Str) : Read := readLoopP (ps.flatten.length + 1) none 0 [] ps q

end Xeus
