import Verif.Server.Split
import Verif.Server.Remote

/-!
# The split servers with requests from the control thread to the shell thread: the model

As `Verif/Server/Split.lean`, but an internal request of the debugger travels over the sockets between control and shell
thread, as in the code: `xzmq_messenger::send_to_shell_impl` (src/xzmq_messenger.cpp:59-66) sends the text on
`m_shell_controller` and waits for the answer; the shell thread finds it in `m_controller` after it has handled the shell
message it may have in hand (src/xshell.cpp:63-87), has the kernel core perform it (`dispatch_internal`,
src/xkernel_core.cpp:139-144) and sends the result.  The command `stop` travels the same way.

Simplifications: as in `Split`; a thread stays where an exception leaves `dispatch` or `dispatch_internal` (the process is
terminated then); the shell thread stays where it asks itself (a debug request on the shell channel; it waits for itself for
ever then.  What a later use of the same socket by the control thread does is not modelled).  What an internal request does
is recorded in the name of the control thread, which waits for it.
-/

namespace Xeus

/-- What happens, with the exchanges between control and shell thread. -/
inductive DEv where
  | ev (e : SEv)
  /-- the control thread sends a request -/
  | asked (text : Frame)
  /-- the shell thread receives it -/
  | began (text : Frame)
  /-- the shell thread sends the result -/
  | ended (r : Frame)
  /-- the control thread receives it -/
  | got (r : Frame)
  deriving DecidableEq, Repr

/-- The server. -/
structure Duo (σ : Type) where
  w : World σ
  /-- what the control thread has still to do for the message in hand -/
  cprog : A (World σ) Unit
  /-- what the shell thread has still to do for the message in hand -/
  sprog : A (World σ) Unit
  /-- what the shell thread has still to do for the internal request in hand -/
  inner : Option (K (World σ) Frame)
  controlQ : List Multipart
  kpc : CtlPc
  /-- the control thread waits for the answer to an internal request -/
  calling : Bool
  spc : ShellPc
  /-- `m_request_stop` -/
  flag : Bool
  /-- a message waits in `m_controller` -/
  cmd : Option Frame
  /-- a message waits in `m_shell_controller` -/
  rep : Option Frame
  pub : Relay Chan
  hb : Relay Nat
  /-- `m_control_stopped` -/
  stopped : Bool
  dropped : Chan → Nat
  log : List DEv

namespace Duo

variable {σ : Type}

/-- At the start. -/
def init (st : Start σ) : Duo σ :=
  ⟨st.w, .done (.ok ()), .done (.ok ()), none, [], .entry, false, .poll, false, none, none, Relay.init,
    Relay.init, false, fun _ => 0, []⟩

/-- The shared state changes by one step made for thread `t`, of whose publications `keep` remain. -/
def effect (s : Duo σ) (t : Chan) (w' : World σ) (keep : Chan → List Multipart) : Duo σ :=
  { s with
    w := w'
    flag := s.flag || decide (Ev.stop ∈ w'.out.drop s.w.out.length)
    pub := (s.pub.put .shell (keep .shell)).put .control (keep .control)
    dropped := fun k => s.dropped k + ((pubsOn k (w'.out.drop s.w.out.length)).length - (keep k).length)
    log := s.log ++ (entries t s.w w').map fun a => .ev (.act a) }

/-- The steps. -/
inductive Step (env : Env) (I : Interp σ) : SWho → Duo σ → Duo σ → Prop
  | arriveShell (s : Duo σ) (q : Multipart) : Step env I .world s { s with
      w := { s.w with shellQ := s.w.shellQ ++ [q] }, log := s.log ++ [.ev (.arrived .shell q)] }
  | arriveControl (s : Duo σ) (q : Multipart) : Step env I .world s { s with
      controlQ := s.controlQ ++ [q], log := s.log ++ [.ev (.arrived .control q)] }
  | arriveStdin (s : Duo σ) (q : Multipart) : Step env I .world s { s with
      w := { s.w with stdinQ := s.w.stdinQ ++ [q] } }
  | ping (s : Duo σ) (i : Nat) (m : Multipart) : Step env I .world s { s with hb := s.hb.put i [m] }
  | publisher (s : Duo σ) (a : Relay Chan) : s.pub.Step a → Step env I .pub s { s with pub := a }
  | heartbeat (s : Duo σ) (a : Relay Nat) : s.hb.Step a → Step env I .hb s { s with hb := a }
  -- the control thread
  | start (s : Duo σ) : s.kpc = .entry →
      Step env I .control s { s with kpc := .loop, flag := false, log := s.log ++ [.ev .began] }
  | test (s : Duo σ) : s.kpc = .loop → s.flag = false → Step env I .control s { s with kpc := .recv }
  | leave (s : Duo σ) : s.kpc = .loop → s.flag = true → Step env I .control s { s with kpc := .stopSh }
  | takeControl (s : Duo σ) (q : Multipart) (r : List Multipart) : s.kpc = .recv → s.controlQ = q :: r →
      Step env I .control s { s with
        controlQ := r, cprog := dispatchA env I q .control, kpc := .busy, log := s.log ++ [.ev (.act (.took .control q))] }
  | workControl (s : Duo σ) (p : A (World σ) Unit) (w' : World σ) (keep : Chan → List Multipart) :
      s.kpc = .busy → s.cprog.step s.w = some (p, w') →
      (∀ k, (keep k).Sublist (pubsOn k (w'.out.drop s.w.out.length))) →
      Step env I .control s { s.effect .control w' keep with cprog := p }
  /-- `wire_msg.send(m_shell_controller)` (src/xzmq_messenger.cpp:62) -/
  | call (s : Duo σ) (text : Frame) (k : Except Exc Frame → A (World σ) Unit) : s.kpc = .busy → s.calling = false →
      s.cprog = .ask text k →
      Step env I .control s { s with calling := true, cmd := some text, log := s.log ++ [.asked text] }
  /-- `wire_reply.recv(m_shell_controller)` (src/xzmq_messenger.cpp:64) -/
  | answer (s : Duo σ) (text : Frame) (k : Except Exc Frame → A (World σ) Unit) (r : Frame) : s.kpc = .busy → s.calling = true →
      s.cprog = .ask text k → s.rep = some r →
      Step env I .control s { s with calling := false, rep := none, cprog := k (.ok r), log := s.log ++ [.got r] }
  | doneControl (s : Duo σ) : s.kpc = .busy → s.cprog = .done (.ok ()) → Step env I .control s { s with kpc := .loop }
  | stopSh (s : Duo σ) : s.kpc = .stopSh →
      Step env I .control s { s with kpc := .waitSh, cmd := some (lit "stop"), log := s.log ++ [.ev .sentStop] }
  | waitSh (s : Duo σ) : s.kpc = .waitSh → s.rep ≠ none → Step env I .control s { s with kpc := .stopPub, rep := none }
  | stopPub (s : Duo σ) : s.kpc = .stopPub → Step env I .control s { s with kpc := .waitPub, pub := s.pub.command }
  | waitPub (s : Duo σ) : s.kpc = .waitPub → s.pub.ack = true →
      Step env I .control s { s with kpc := .stopHb, pub := s.pub.answered }
  | stopHb (s : Duo σ) : s.kpc = .stopHb → Step env I .control s { s with kpc := .waitHb, hb := s.hb.command }
  | waitHb (s : Duo σ) : s.kpc = .waitHb → s.hb.ack = true →
      Step env I .control s { s with kpc := .notify, hb := s.hb.answered }
  | notify (s : Duo σ) : s.kpc = .notify → Step env I .control s { s with kpc := .over, stopped := true }
  -- the shell thread
  | sample0 (s : Duo σ) (r : Bool) : s.spc = .poll → (r = true ↔ s.w.shellQ ≠ []) →
      Step env I .shell s { s with spc := .sampled r }
  | sample1 (s : Duo σ) (r0 : Bool) : s.spc = .sampled r0 → (r0 = true ∨ s.cmd ≠ none) →
      Step env I .shell s { s with spc := .ready r0 s.cmd.isSome }
  | nothing (s : Duo σ) : s.spc = .sampled false → s.cmd = none → Step env I .shell s { s with spc := .poll }
  | takeShell (s : Duo σ) (r1 : Bool) (q : Multipart) (r : List Multipart) : s.spc = .ready true r1 → s.w.shellQ = q :: r →
      Step env I .shell s { s with
        w := { s.w with shellQ := r }, sprog := dispatchA env I q .shell
        spc := .busy r1, log := s.log ++ [.ev (.act (.took .shell q))] }
  | skip (s : Duo σ) (r1 : Bool) : s.spc = .ready false r1 → Step env I .shell s { s with spc := .asked r1 }
  | workShell (s : Duo σ) (r1 : Bool) (p : A (World σ) Unit) (w' : World σ) (keep : Chan → List Multipart) :
      s.spc = .busy r1 → s.sprog.step s.w = some (p, w') →
      (∀ k, (keep k).Sublist (pubsOn k (w'.out.drop s.w.out.length))) →
      Step env I .shell s { s.effect .shell w' keep with sprog := p }
  | doneShell (s : Duo σ) (r1 : Bool) : s.spc = .busy r1 → s.sprog = .done (.ok ()) →
      Step env I .shell s { s with spc := .asked r1 }
  | again (s : Duo σ) : s.spc = .asked false → Step env I .shell s { s with spc := .poll }
  /-- `wire_msg.recv(m_controller)` of the command (src/xshell.cpp:76-78) -/
  | recvStop (s : Duo σ) : s.spc = .asked true → s.cmd = some (lit "stop") →
      Step env I .shell s { s with spc := .echo, cmd := none }
  /-- `wire_msg.recv(m_controller)` of a request (src/xshell.cpp:76-78, 85) -/
  | recvInternal (s : Duo σ) (text : Frame) : s.spc = .asked true → s.cmd = some text → text ≠ lit "stop" →
      Step env I .shell s { s with
        spc := .echo, cmd := none, inner := some (dispatchInternal env I text), log := s.log ++ [.began text] }
  | workInternal (s : Duo σ) (m p : K (World σ) Frame) (w' : World σ) (keep : Chan → List Multipart) :
      s.spc = .echo → s.inner = some m → m.step s.w = some (p, w') →
      (∀ k, (keep k).Sublist (pubsOn k (w'.out.drop s.w.out.length))) →
      Step env I .shell s { s.effect .control w' keep with inner := some p }
  /-- `wire_reply.send(m_controller)` (src/xshell.cpp:86) -/
  | doneInternal (s : Duo σ) (r : Frame) : s.spc = .echo → s.inner = some (.done (.ok r)) →
      Step env I .shell s { s with spc := .poll, inner := none, rep := some r, log := s.log ++ [.ended r] }
  /-- `wire_msg.send(m_controller)` (src/xshell.cpp:81) -/
  | sendCtl (s : Duo σ) : s.spc = .echo → s.inner = none →
      Step env I .shell s { s with spc := .over, rep := some (lit "stop") }

/-- Reachable states. -/
inductive Reach (env : Env) (I : Interp σ) (st : Start σ) : Duo σ → Prop
  | init : Reach env I st (init st)
  | step {s s' : Duo σ} {a : SWho} : Reach env I st s → Step env I a s s' → Reach env I st s'

/-- `std::exit` is called in `xserver_control_main::start_impl`. -/
def controlMainExits (s : Duo σ) : Prop := s.kpc = .over

/-- `std::exit` is called in `xserver_shell_main::start_impl`. -/
def shellMainExits (s : Duo σ) : Prop := s.spc = .over ∧ s.stopped = true

end Duo

end Xeus
