import Verif.KernelConc.Model
import Verif.Server.RelayLemmas

/-!
# The default server: the model

Models `xserver_zmq` (src/xserver_zmq.cpp): the main thread with its loop (`start_impl` 80-97, `poll` 111-131), the calls of
the kernel core (`Verif/Kernel`), the stop of the channels (`stop_channels` 163-175), and the publisher and heartbeat threads
(`Verif/Server/Relay`).  Messages may arrive at any time.

The kernel is a `Conc` whose threads never work at the same time.  The model begins after the publication of the start
message; it ends where an exception leaves `dispatch`.  A `PUB` socket drops messages when its peer has not yet
subscribed or the queue is full, hence it may keep any subsequence of what is published.
-/

namespace Xeus

/-- Where the main thread is. -/
inductive MainPc where
  /-- at the test `while (!m_request_stop)` -/
  | loop
  /-- in `zmq::poll` -/
  | polling
  /-- in `zmq::poll`, having looked at the control socket -/
  | sampled (rc : Bool)
  /-- `zmq::poll` returned -/
  | polled (rc rs : Bool)
  /-- handling a control message -/
  | control (rs : Bool)
  /-- at the second `if` of `poll` -/
  | between (rs : Bool)
  /-- at `wire_msg.recv(m_shell)` -/
  | recv
  /-- handling a shell message -/
  | shell
  /-- in `stop_channels` -/
  | stopPub | waitPub | stopHb | waitHb
  /-- at `std::exit` -/
  | exited
  deriving DecidableEq, Repr

/-- What happens. -/
inductive SEv where
  /-- a message arrives on the shell or control socket -/
  | arrived (c : Chan) (q : Multipart)
  /-- the main thread enters `zmq::poll` -/
  | poll
  | act (a : Act)
  /-- split servers: the control thread enters `run` and resets `m_request_stop` -/
  | began
  /-- split servers: the control thread sends the stop command to the shell thread -/
  | sentStop
  deriving DecidableEq, Repr

/-- The server.  `dropped` counts the publications not kept by the socket. -/
structure Main (σ : Type) where
  c : Conc σ
  pc : MainPc
  pub : Relay Unit
  hb : Relay Nat
  dropped : Nat
  log : List SEv

/-- The threads, and the clients. -/
inductive Who where
  | world | main | pub | hb
  deriving DecidableEq, Repr

/-- The messages published. -/
def pubsOf : List Ev → List Multipart
  | [] => []
  | .pub _ _ w :: r => w :: pubsOf r
  | _ :: r => pubsOf r

/-- The value of `m_request_stop`, set by `stop_impl` (src/xserver_zmq.cpp:149-152). -/
def stopAsked {σ : Type} (w : World σ) : Prop := Ev.stop ∈ w.out

namespace Main

variable {σ : Type}

/-- At the start. -/
def init (st : Start σ) : Main σ :=
  ⟨⟨st.w, fun _ => .done (.ok ()), [], []⟩, .loop, Relay.init, Relay.init, 0, []⟩

/-- The program of thread `t` makes one step, of whose publications `keep` remain. -/
def work (s : Main σ) (t : Chan) (p : K (World σ) Unit) (w' : World σ) (keep : List Multipart) : Main σ :=
  { s with
    c := { s.c with w := w', prog := setProg s.c t p, log := s.c.log ++ entries t s.c.w w' }
    pub := s.pub.put () keep
    dropped := s.dropped + ((pubsOf (w'.out.drop s.c.w.out.length)).length - keep.length)
    log := s.log ++ (entries t s.c.w w').map .act }

/-- The steps. -/
inductive Step (env : Env) (I : Interp σ) : Who → Main σ → Main σ → Prop
  | arriveShell (s : Main σ) (q : Multipart) : Step env I .world s { s with
      c := { s.c with w := { s.c.w with shellQ := s.c.w.shellQ ++ [q] } }, log := s.log ++ [.arrived .shell q] }
  | arriveControl (s : Main σ) (q : Multipart) : Step env I .world s { s with
      c := { s.c with controlQ := s.c.controlQ ++ [q] }, log := s.log ++ [.arrived .control q] }
  | arriveStdin (s : Main σ) (q : Multipart) : Step env I .world s { s with
      c := { s.c with w := { s.c.w with stdinQ := s.c.w.stdinQ ++ [q] } } }
  /-- a client sends a heartbeat -/
  | ping (s : Main σ) (i : Nat) (m : Multipart) : Step env I .world s { s with hb := s.hb.put i [m] }
  | publisher (s : Main σ) (a : Relay Unit) : s.pub.Step a → Step env I .pub s { s with pub := a }
  | heartbeat (s : Main σ) (a : Relay Nat) : s.hb.Step a → Step env I .hb s { s with hb := a }
  | enter (s : Main σ) : s.pc = .loop → ¬ stopAsked s.c.w →
      Step env I .main s { s with pc := .polling, log := s.log ++ [.poll] }
  | sampleControl (s : Main σ) (rc : Bool) : s.pc = .polling → (rc = true ↔ s.c.controlQ ≠ []) →
      Step env I .main s { s with pc := .sampled rc }
  | sampleShell (s : Main σ) (rc rs : Bool) : s.pc = .sampled rc → (rs = true ↔ s.c.w.shellQ ≠ []) →
      (rc = true ∨ rs = true) → Step env I .main s { s with pc := .polled rc rs }
  | nothing (s : Main σ) : s.pc = .sampled false → s.c.w.shellQ = [] → Step env I .main s { s with pc := .polling }
  | takeControl (s : Main σ) (rs : Bool) (q : Multipart) (r : List Multipart) : s.pc = .polled true rs →
      s.c.controlQ = q :: r → Step env I .main s { s with
        c := { s.c with controlQ := r, prog := setProg s.c .control (dispatch env I q .control),
                        log := s.c.log ++ [.took .control q] }
        pc := .control rs, log := s.log ++ [.act (.took .control q)] }
  | noControl (s : Main σ) (rs : Bool) : s.pc = .polled false rs → Step env I .main s { s with pc := .between rs }
  | workControl (s : Main σ) (rs : Bool) (p : K (World σ) Unit) (w' : World σ) (keep : List Multipart) :
      s.pc = .control rs → (s.c.prog .control).step s.c.w = some (p, w') →
      keep.Sublist (pubsOf (w'.out.drop s.c.w.out.length)) → Step env I .main s (s.work .control p w' keep)
  | doneControl (s : Main σ) (rs : Bool) : s.pc = .control rs → s.c.prog .control = .done (.ok ()) →
      Step env I .main s { s with pc := .between rs }
  | shellNext (s : Main σ) : s.pc = .between true → ¬ stopAsked s.c.w → Step env I .main s { s with pc := .recv }
  | noShell (s : Main σ) (rs : Bool) : s.pc = .between rs → (rs = false ∨ stopAsked s.c.w) →
      Step env I .main s { s with pc := .loop }
  | takeShell (s : Main σ) (q : Multipart) (r : List Multipart) : s.pc = .recv → s.c.w.shellQ = q :: r →
      Step env I .main s { s with
        c := { s.c with w := { s.c.w with shellQ := r }, prog := setProg s.c .shell (dispatch env I q .shell),
                        log := s.c.log ++ [.took .shell q] }
        pc := .shell, log := s.log ++ [.act (.took .shell q)] }
  | workShell (s : Main σ) (p : K (World σ) Unit) (w' : World σ) (keep : List Multipart) :
      s.pc = .shell → (s.c.prog .shell).step s.c.w = some (p, w') →
      keep.Sublist (pubsOf (w'.out.drop s.c.w.out.length)) → Step env I .main s (s.work .shell p w' keep)
  | doneShell (s : Main σ) : s.pc = .shell → s.c.prog .shell = .done (.ok ()) → Step env I .main s { s with pc := .loop }
  | leave (s : Main σ) : s.pc = .loop → stopAsked s.c.w → Step env I .main s { s with pc := .stopPub }
  | stopPub (s : Main σ) : s.pc = .stopPub → Step env I .main s { s with pc := .waitPub, pub := s.pub.command }
  | waitPub (s : Main σ) : s.pc = .waitPub → s.pub.ack = true →
      Step env I .main s { s with pc := .stopHb, pub := s.pub.answered }
  | stopHb (s : Main σ) : s.pc = .stopHb → Step env I .main s { s with pc := .waitHb, hb := s.hb.command }
  | waitHb (s : Main σ) : s.pc = .waitHb → s.hb.ack = true →
      Step env I .main s { s with pc := .exited, hb := s.hb.answered }

/-- Reachable states. -/
inductive Reach (env : Env) (I : Interp σ) (st : Start σ) : Main σ → Prop
  | start : Reach env I st (init st)
  | step {s s' : Main σ} {a : Who} : Reach env I st s → Step env I a s s' → Reach env I st s'

end Main

end Xeus
