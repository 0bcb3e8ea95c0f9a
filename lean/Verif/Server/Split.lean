import Verif.Server.Model

/-!
# The split servers: the model

Models `xserver_control_main` and `xserver_shell_main`: the control thread (`xcontrol::run`, src/xcontrol.cpp:55-68, with
`xzmq_messenger::stop_channels`, src/xzmq_messenger.cpp:41-57, and `notify_control_stopped`, src/xserver_zmq_split.cpp:41-44),
the shell thread (`xshell::run`, src/xshell.cpp:54-90), and the publisher and heartbeat threads.  Which of control and shell
thread is the main thread matters only for when the process ends (`controlMainExits`, `shellMainExits`; src/xserver_control_main.cpp:31-41,
src/xserver_shell_main.cpp:32-47): all four threads run at the same time.

`m_request_stop` (`flag`) is set by `stop_impl` (src/xserver_zmq_split.cpp:83-86, src/xcontrol.cpp:70-73) in the thread that
handles the request and reset when the control thread enters `run` (src/xcontrol.cpp:57).

Simplifications as in `Verif/KernelConc`: sequentially consistent accesses, internal requests of the debugger performed by the
control thread (see `Verif/Server/Duo` for the way they take and C81 for why it makes no difference).  The model begins after the publication of the start message; a thread stays where an exception leaves
`dispatch` (the process is terminated then).
-/

namespace Xeus

/-- Where the control thread is. -/
inductive CtlPc where
  /-- before `run` -/
  | entry
  /-- at the test `while (!m_request_stop)` -/
  | loop
  /-- at `wire_msg.recv(m_control)` -/
  | recv
  /-- handling a message -/
  | busy
  /-- in `stop_channels` -/
  | stopSh | waitSh | stopPub | waitPub | stopHb | waitHb
  /-- at `notify_control_stopped` -/
  | notify
  /-- `run` returned -/
  | over
  deriving DecidableEq, Repr

/-- Where the shell thread is. -/
inductive ShellPc where
  /-- in `zmq::poll` -/
  | poll
  /-- in `zmq::poll`, having looked at the shell socket -/
  | sampled (r0 : Bool)
  /-- `zmq::poll` returned -/
  | ready (r0 r1 : Bool)
  /-- handling a message -/
  | busy (r1 : Bool)
  /-- at the second `if` -/
  | asked (r1 : Bool)
  /-- between `recv` and `send` of the command -/
  | echo
  /-- `run` returned -/
  | over
  deriving DecidableEq, Repr

/-- The server. -/
structure Split (σ : Type) where
  c : Conc σ
  kpc : CtlPc
  spc : ShellPc
  /-- `m_request_stop` -/
  flag : Bool
  /-- the command waits for the shell thread -/
  ctl : Bool
  /-- its answer waits for the control thread -/
  ack : Bool
  pub : Relay Chan
  hb : Relay Nat
  /-- `m_control_stopped` -/
  stopped : Bool
  /-- publications not kept by the two sockets -/
  dropped : Chan → Nat
  log : List SEv

/-- The threads, and the clients. -/
inductive SWho where
  | world | control | shell | pub | hb
  deriving DecidableEq, Repr

/-- The messages published through the socket of a thread. -/
def pubsOn (k : Chan) : List Ev → List Multipart
  | [] => []
  | .pub c _ w :: r => if publishSocket c = k then w :: pubsOn k r else pubsOn k r
  | _ :: r => pubsOn k r

namespace Split

variable {σ : Type}

/-- At the start. -/
def init (st : Start σ) : Split σ :=
  ⟨⟨st.w, fun _ => .done (.ok ()), [], []⟩, .entry, .poll, false, false, false, Relay.init, Relay.init,
    false, fun _ => 0, []⟩

/-- The program of thread `t` makes one step, of whose publications `keep` remain. -/
def work (s : Split σ) (t : Chan) (p : K (World σ) Unit) (w' : World σ) (keep : Chan → List Multipart) : Split σ :=
  { s with
    c := { s.c with w := w', prog := setProg s.c t p, log := s.c.log ++ entries t s.c.w w' }
    flag := s.flag || decide (Ev.stop ∈ w'.out.drop s.c.w.out.length)
    pub := (s.pub.put .shell (keep .shell)).put .control (keep .control)
    dropped := fun k => s.dropped k + ((pubsOn k (w'.out.drop s.c.w.out.length)).length - (keep k).length)
    log := s.log ++ (entries t s.c.w w').map .act }

/-- The steps. -/
inductive Step (env : Env) (I : Interp σ) : SWho → Split σ → Split σ → Prop
  | arriveShell (s : Split σ) (q : Multipart) : Step env I .world s { s with
      c := { s.c with w := { s.c.w with shellQ := s.c.w.shellQ ++ [q] } }, log := s.log ++ [.arrived .shell q] }
  | arriveControl (s : Split σ) (q : Multipart) : Step env I .world s { s with
      c := { s.c with controlQ := s.c.controlQ ++ [q] }, log := s.log ++ [.arrived .control q] }
  | arriveStdin (s : Split σ) (q : Multipart) : Step env I .world s { s with
      c := { s.c with w := { s.c.w with stdinQ := s.c.w.stdinQ ++ [q] } } }
  | ping (s : Split σ) (i : Nat) (m : Multipart) : Step env I .world s { s with hb := s.hb.put i [m] }
  | publisher (s : Split σ) (a : Relay Chan) : s.pub.Step a → Step env I .pub s { s with pub := a }
  | heartbeat (s : Split σ) (a : Relay Nat) : s.hb.Step a → Step env I .hb s { s with hb := a }
  -- the control thread
  | start (s : Split σ) : s.kpc = .entry → Step env I .control s { s with kpc := .loop, flag := false, log := s.log ++ [.began] }
  | test (s : Split σ) : s.kpc = .loop → s.flag = false → Step env I .control s { s with kpc := .recv }
  | leave (s : Split σ) : s.kpc = .loop → s.flag = true → Step env I .control s { s with kpc := .stopSh }
  | takeControl (s : Split σ) (q : Multipart) (r : List Multipart) : s.kpc = .recv → s.c.controlQ = q :: r →
      Step env I .control s { s with
        c := { s.c with controlQ := r, prog := setProg s.c .control (dispatch env I q .control),
                        log := s.c.log ++ [.took .control q] }
        kpc := .busy, log := s.log ++ [.act (.took .control q)] }
  | workControl (s : Split σ) (p : K (World σ) Unit) (w' : World σ) (keep : Chan → List Multipart) :
      s.kpc = .busy → (s.c.prog .control).step s.c.w = some (p, w') →
      (∀ k, (keep k).Sublist (pubsOn k (w'.out.drop s.c.w.out.length))) → Step env I .control s (s.work .control p w' keep)
  | doneControl (s : Split σ) : s.kpc = .busy → s.c.prog .control = .done (.ok ()) →
      Step env I .control s { s with kpc := .loop }
  | stopSh (s : Split σ) : s.kpc = .stopSh → Step env I .control s { s with kpc := .waitSh, ctl := true, log := s.log ++ [.sentStop] }
  | waitSh (s : Split σ) : s.kpc = .waitSh → s.ack = true → Step env I .control s { s with kpc := .stopPub, ack := false }
  | stopPub (s : Split σ) : s.kpc = .stopPub → Step env I .control s { s with kpc := .waitPub, pub := s.pub.command }
  | waitPub (s : Split σ) : s.kpc = .waitPub → s.pub.ack = true →
      Step env I .control s { s with kpc := .stopHb, pub := s.pub.answered }
  | stopHb (s : Split σ) : s.kpc = .stopHb → Step env I .control s { s with kpc := .waitHb, hb := s.hb.command }
  | waitHb (s : Split σ) : s.kpc = .waitHb → s.hb.ack = true →
      Step env I .control s { s with kpc := .notify, hb := s.hb.answered }
  | notify (s : Split σ) : s.kpc = .notify → Step env I .control s { s with kpc := .over, stopped := true }
  -- the shell thread
  | sample0 (s : Split σ) (r : Bool) : s.spc = .poll → (r = true ↔ s.c.w.shellQ ≠ []) →
      Step env I .shell s { s with spc := .sampled r }
  | sample1 (s : Split σ) (r0 : Bool) : s.spc = .sampled r0 → (r0 = true ∨ s.ctl = true) →
      Step env I .shell s { s with spc := .ready r0 s.ctl }
  | nothing (s : Split σ) : s.spc = .sampled false → s.ctl = false → Step env I .shell s { s with spc := .poll }
  | takeShell (s : Split σ) (r1 : Bool) (q : Multipart) (r : List Multipart) : s.spc = .ready true r1 → s.c.w.shellQ = q :: r →
      Step env I .shell s { s with
        c := { s.c with w := { s.c.w with shellQ := r }, prog := setProg s.c .shell (dispatch env I q .shell),
                        log := s.c.log ++ [.took .shell q] }
        spc := .busy r1, log := s.log ++ [.act (.took .shell q)] }
  | skip (s : Split σ) (r1 : Bool) : s.spc = .ready false r1 → Step env I .shell s { s with spc := .asked r1 }
  | workShell (s : Split σ) (r1 : Bool) (p : K (World σ) Unit) (w' : World σ) (keep : Chan → List Multipart) :
      s.spc = .busy r1 → (s.c.prog .shell).step s.c.w = some (p, w') →
      (∀ k, (keep k).Sublist (pubsOn k (w'.out.drop s.c.w.out.length))) → Step env I .shell s (s.work .shell p w' keep)
  | doneShell (s : Split σ) (r1 : Bool) : s.spc = .busy r1 → s.c.prog .shell = .done (.ok ()) →
      Step env I .shell s { s with spc := .asked r1 }
  | again (s : Split σ) : s.spc = .asked false → Step env I .shell s { s with spc := .poll }
  | recvCtl (s : Split σ) : s.spc = .asked true → Step env I .shell s { s with spc := .echo, ctl := false }
  | sendCtl (s : Split σ) : s.spc = .echo → Step env I .shell s { s with spc := .over, ack := true }

/-- Reachable states. -/
inductive Reach (env : Env) (I : Interp σ) (st : Start σ) : Split σ → Prop
  | init : Reach env I st (init st)
  | step {s s' : Split σ} {a : SWho} : Reach env I st s → Step env I a s s' → Reach env I st s'

/-- `std::exit` is called in `xserver_control_main::start_impl`. -/
def controlMainExits (s : Split σ) : Prop := s.kpc = .over

/-- `std::exit` is called in `xserver_shell_main::start_impl`. -/
def shellMainExits (s : Split σ) : Prop := s.spc = .over ∧ s.stopped = true

end Split

end Xeus
