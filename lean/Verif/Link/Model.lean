import Verif.Debugger.Model
import Verif.KernelConc.Model

/-!
# The debugger and the debug adapter client together: the model

`xdebugger_base` (src/xdebugger_base.cpp, `Verif/Debugger`) runs on the control thread and `xdap_tcp_client`
(src/xdap_tcp_client.cpp, `Verif/Dap`) on a thread of its own.  They are connected by two pairs of request and reply sockets:
`m_header_socket` with `m_controller_header` and `m_request_socket` with `m_controller`.  Here the two programs run interleaved,
one atomic access at a time, and the lists of the two models hold what has arrived so far, so that receiving is a step that is
possible once something is there.

The functions `start` and `stop` of the debugger are supplied by the kernel author.  `start` must connect the two sockets, launch
`start_debugger` on a thread and wait for its acknowledgment (src/xdap_tcp_client.cpp:138-142) before it returns true; the model
assumes that it does so, and that an earlier run of the client has ended by then.  The exchange is one step.

The event callback of the client is an arbitrary function on the state of its user code; what it does to the debugger
(`handle_event` changes `m_stopped_threads`, src/xdebugger_base.cpp:282-313) is covered by letting the state of the user code, the
stopped threads and the files change at any time.

Simplifications: accesses are sequentially consistent; a read that needs several chunks of the stream (`handle_tcp_socket`,
`wait_for_message`) is performed at once when the last of them has arrived, the stream having no other reader; sockets are
not closed while messages are under way.
-/

namespace Xeus.Link

open Xeus

/-- What happens, in the order in which it happens. -/
inductive LinkEv where
  /-- the control thread begins to process a request of the frontend -/
  | call (header m : Json)
  /-- it is done, with the answer or the exception -/
  | ret (r : Res Json)
  /-- done by the debugger: `start`, `stop`, a header or a request sent -/
  | dbg (e : Dbg.Event)
  /-- received by the debugger on `m_header_socket` -/
  | acked (bytes : Str)
  /-- received by the debugger on `m_request_socket` -/
  | answered (bytes : Str)
  /-- received by the client on `m_controller` -/
  | took (bytes : Str)
  /-- bytes of the adapter arrive at the client -/
  | sent (bytes : Str)
  /-- done by the client; `header` is the receipt on `m_controller_header` together with the acknowledgment -/
  | cli (e : DapEv)
  deriving DecidableEq, Repr

/-- Where the thread of the client is. -/
inductive Pc (σ : Type) : Type 1 where
  /-- not launched, or ended -/
  | off
  /-- at the head of the loop (src/xdap_tcp_client.cpp:150) -/
  | top
  /-- after the poll, with this left to do (src/xdap_tcp_client.cpp:154-167) -/
  | io (p : K (Dap σ) Unit)
  /-- at the head of the loop of `process_message_queue` (src/xdap_tcp_client.cpp:326) -/
  | queue
  /-- in that loop, with this left to do (src/xdap_tcp_client.cpp:328-344) -/
  | msg (p : K (Dap σ) Unit)
  /-- left by an exception, or by undefined behaviour, or in an endless loop of the user code -/
  | failed (r : Res Unit)

/-- The two threads, their sockets and what has happened. -/
structure Link (τ σ : Type) : Type 1 where
  dbg : Dbg.State τ
  /-- what is left to do of the request in hand -/
  ctl : Option (K (Dbg.State τ) Json)
  dap : Dap σ
  pc : Pc σ
  log : List LinkEv

section
variable {τ σ : Type} (d : Dbg.Debugger τ) (cl : Client σ)

/-- The next access does not block. -/
def Ready {S α : Type} (p : K S α) (s : S) : Prop :=
  match p with
  | .done _ => False
  | .act f _ => (f s).1 ≠ .hang

/-- What an access of the debugger did, in the order in which it happened. -/
def dbgEntries (s s' : Dbg.State τ) : List LinkEv :=
  (s.acks.take (s.acks.length - s'.acks.length)).map .acked ++
    (s.replies.take (s.replies.length - s'.replies.length)).map .answered ++ (s'.out.drop s.out.length).map .dbg

/-- What an access of the client did. -/
def dapEntries (s s' : Dap σ) : List LinkEv :=
  (s.ctlIn.take (s.ctlIn.length - s'.ctlIn.length)).map .took ++ (s'.out.drop s.out.length).map .cli

/-- Headers and requests among what the debugger did. -/
def headersOf (l : List Dbg.Event) : List Str := l.filterMap fun | .header b => some b | _ => none
def requestsOf (l : List Dbg.Event) : List Str := l.filterMap fun | .request b => some b | _ => none

/-- Acknowledgments (src/xdap_tcp_client.cpp:220) and answers among what the client did. -/
def acksOf (l : List DapEv) : List Str := l.filterMap fun | .header _ => some (lit "ACK") | _ => none
def repliesOf (l : List DapEv) : List Str := l.filterMap fun | .reply b => some b | _ => none

/-- What the debugger sends arrives at the client. -/
def toDap (s s' : Dbg.State τ) (c : Dap σ) : Dap σ :=
  { c with hdrIn := c.hdrIn ++ headersOf (s'.out.drop s.out.length),
           ctlIn := c.ctlIn ++ requestsOf (s'.out.drop s.out.length) }

/-- What the client sends arrives at the debugger. -/
def toDbg (c c' : Dap σ) (s : Dbg.State τ) : Dbg.State τ :=
  { s with acks := s.acks ++ acksOf (c'.out.drop c.out.length),
           replies := s.replies ++ repliesOf (c'.out.drop c.out.length) }

/-- The access has been a successful `start`. -/
def Starts (s s' : Dbg.State τ) : Prop := Dbg.Event.start true ∈ s'.out.drop s.out.length

/-- The steps. -/
inductive Step : Link τ σ → Link τ σ → Prop
  /-- the control thread begins to process a request (src/xdebugger_base.cpp:315) -/
  | call {s : Link τ σ} (header m : Json) : s.ctl = none →
      Step s { s with ctl := some (Dbg.processRequest d header m), log := s.log ++ [.call header m] }
  /-- it is done (src/xdebugger_base.cpp:379) -/
  | ret {s : Link τ σ} {r : Res Json} : s.ctl = some (.done r) → r.isUb = false → r ≠ .hang →
      Step s { s with ctl := none, log := s.log ++ [.ret r] }
  /-- an access of the control thread -/
  | dbg {s : Link τ σ} {p p' : K (Dbg.State τ) Json} {t : Dbg.State τ} : s.ctl = some p → Ready p s.dbg →
      p.step s.dbg = some (p', t) → ¬ Starts s.dbg t →
      Step s { s with dbg := t, ctl := some p', dap := toDap s.dbg t s.dap, log := s.log ++ dbgEntries s.dbg t }
  /-- `start` is successful: it has sent `q` to the client, which has received and acknowledged it -/
  | start {s : Link τ σ} {p p' : K (Dbg.State τ) Json} {t : Dbg.State τ} {c : Dap σ} (q : Str) : s.ctl = some p → Ready p s.dbg →
      p.step s.dbg = some (p', t) → Starts s.dbg t → s.pc = .off →
      (startDebugger cl).run { s.dap with ctlIn := s.dap.ctlIn ++ [q] } = (.ok (), c) →
      Step s { s with dbg := t, ctl := some p', dap := c, pc := .top, log := s.log ++ dbgEntries s.dbg t }
  /-- an access of the client after the poll -/
  | io {s : Link τ σ} {p p' : K (Dap σ) Unit} {c : Dap σ} : s.pc = .io p → Ready p s.dap → p.step s.dap = some (p', c) →
      Step s { s with dap := c, pc := .io p', dbg := toDbg s.dap c s.dbg, log := s.log ++ dapEntries s.dap c }
  /-- an access of the client while it handles a message of the adapter -/
  | msg {s : Link τ σ} {p p' : K (Dap σ) Unit} {c : Dap σ} : s.pc = .msg p → Ready p s.dap → p.step s.dap = some (p', c) →
      Step s { s with dap := c, pc := .msg p', dbg := toDbg s.dap c s.dbg, log := s.log ++ dapEntries s.dap c }
  /-- the poll returns (src/xdap_tcp_client.cpp:152) -/
  | poll {s : Link τ σ} {hdr ctl tcp : Bool} : s.pc = .top → s.dap.requestStop = false → PollOk s.dap hdr ctl tcp →
      Step s { s with pc := .io (afterPoll cl hdr ctl tcp) }
  /-- the client turns to its queue (src/xdap_tcp_client.cpp:169) -/
  | polled {s : Link τ σ} : s.pc = .io (.done (.ok ())) → Step s { s with pc := .queue }
  | next {s : Link τ σ} {raw : Str} {q : List Str} : s.pc = .queue → s.dap.queue = raw :: q →
      Step s { s with pc := .msg (processOne cl raw) }
  | handled {s : Link τ σ} : s.pc = .msg (.done (.ok ())) → Step s { s with pc := .queue }
  | emptied {s : Link τ σ} : s.pc = .queue → s.dap.queue = [] → Step s { s with pc := .top }
  /-- an exception leaves the thread -/
  | fail {s : Link τ σ} {r : Res Unit} : s.pc = .io (.done r) ∨ s.pc = .msg (.done r) → r ≠ .ok () →
      Step s { s with pc := .failed r }
  /-- the client leaves the loop and closes the connection with the adapter (src/xdap_tcp_client.cpp:171-176) -/
  | leave {s : Link τ σ} : s.pc = .top → s.dap.requestStop = true →
      Step s { s with pc := .off, dap := { s.dap with requestStop := false, tcpIn := [] } }
  /-- bytes arrive from the adapter -/
  | arrive {s : Link τ σ} (bytes : Str) : s.pc ≠ .off →
      Step s { s with dap := { s.dap with tcpIn := s.dap.tcpIn ++ [bytes] }, log := s.log ++ [.sent bytes] }
  /-- the user code of the two sides, running anywhere, changes what it shares with the event callback -/
  | user {s : Link τ σ} (u : τ) (threads : List Int) (files : Str → Option Str) (v : σ) :
      Step s { s with dbg := { s.dbg with st := u, threads := threads, files := files }, dap := { s.dap with st := v } }

/-- Before the first request: the client has been constructed, the debugger is not started. -/
def Link.initial (u : τ) (files : Str → Option Str) (v : σ) : Link τ σ :=
  ⟨⟨u, false, [], [], files, [], [], []⟩, none, Dap.initial v [] [] [], .off, []⟩

/-- Reachable states. -/
inductive Reach (u : τ) (files : Str → Option Str) (v : σ) : Link τ σ → Prop
  | init : Reach u files v (Link.initial u files v)
  | step {s s' : Link τ σ} : Reach u files v s → Step d cl s s' → Reach u files v s'

end

end Xeus.Link
