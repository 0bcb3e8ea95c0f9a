import Verif.Kernel.Model

/-!
# The shell and the control thread of the split servers: the model

Models `xshell::run` (src/xshell.cpp:54-90) and `xcontrol::run` (src/xcontrol.cpp:55-68) as two threads that dispatch
messages (src/xkernel_core.cpp:110-118) on the same kernel core.  One step of a thread is one atomic access to the shared
state (`K.act`), so that e.g. the two assignments of `set_parent` are two steps; any thread may take the next step, and
messages may arrive at any time.

Simplifications: accesses are sequentially consistent; the loops do not end (what `stop` does to them is the subject of
`Verif/Server`); an internal request made by the debugger is performed by the control thread at the time of the request,
whereas the shell thread performs it between two messages (src/xshell.cpp:85).  `Verif/Server/Duo` models that, and C81 says
that nothing else can happen then.
-/

namespace Xeus

/-- The thread owning the publisher socket that `publish_impl` uses (src/xserver_zmq_split.cpp:66-76,
src/xshell.cpp:105-108, src/xcontrol.cpp:80-83). -/
def publishSocket (c : Chan) : Chan := if c = .shell then .shell else .control

/-- One step of a program. -/
def K.step {S α : Type} (m : K S α) (s : S) : Option (K S α × S) :=
  match m with
  | .done _ => none
  | .act f k => some (match f s with
    | (.ok b, s') => (k (.ok b), s')
    | (.exc e, s') => (k (.error e), s')
    | (.ub w, s') => (.done (.ub w), s')
    | (.hang, s') => (.done .hang, s'))

/-- What the threads do, in the order in which it happens. -/
inductive Act where
  /-- the thread of this channel received a message and begins to handle it -/
  | took (t : Chan) (q : Multipart)
  /-- `abort_queue`, run by the thread of this channel, received a message on the shell socket -/
  | drained (t : Chan) (q : Multipart)
  | did (t : Chan) (e : Ev)
  deriving DecidableEq, Repr

/-- Which thread it was. -/
def Act.thread : Act → Chan
  | took t _ => t
  | drained t _ => t
  | did t _ => t

/-- Shared state, what the threads have still to do for the message in hand, messages waiting on the control socket
(those on the shell socket are in the shared state), and what happened so far. -/
structure Conc (σ : Type) where
  w : World σ
  prog : Chan → K (World σ) Unit
  controlQ : List Multipart
  log : List Act

/-- What one step of thread `t` that changes `w` to `w'` did. -/
def entries {σ : Type} (t : Chan) (w w' : World σ) : List Act :=
  (w.shellQ.take (w.shellQ.length - w'.shellQ.length)).map (.drained t) ++
    (w'.out.drop w.out.length).map (.did t)

/-- Replace the program of one thread. -/
def setProg {σ : Type} (s : Conc σ) (t : Chan) (p : K (World σ) Unit) : Chan → K (World σ) Unit :=
  fun t' => if t' = t then p else s.prog t'

/-- The steps. -/
inductive CStep {σ : Type} (env : Env) (I : Interp σ) : Conc σ → Conc σ → Prop
  | arriveShell (s : Conc σ) (q : Multipart) :
      CStep env I s { s with w := { s.w with shellQ := s.w.shellQ ++ [q] } }
  | arriveControl (s : Conc σ) (q : Multipart) : CStep env I s { s with controlQ := s.controlQ ++ [q] }
  | arriveStdin (s : Conc σ) (q : Multipart) :
      CStep env I s { s with w := { s.w with stdinQ := s.w.stdinQ ++ [q] } }
  /-- the shell thread is done with a message and receives the next one (src/xshell.cpp:63-70) -/
  | takeShell (s : Conc σ) (q : Multipart) (r : List Multipart) : s.prog .shell = .done (.ok ()) → s.w.shellQ = q :: r →
      CStep env I s { s with w := { s.w with shellQ := r }, prog := setProg s .shell (dispatch env I q .shell),
                             log := s.log ++ [.took .shell q] }
  /-- the control thread is done with a message and receives the next one (src/xcontrol.cpp:59-64) -/
  | takeControl (s : Conc σ) (q : Multipart) (r : List Multipart) : s.prog .control = .done (.ok ()) → s.controlQ = q :: r →
      CStep env I s { s with controlQ := r, prog := setProg s .control (dispatch env I q .control),
                             log := s.log ++ [.took .control q] }
  | act (s : Conc σ) (t : Chan) (p : K (World σ) Unit) (w' : World σ) : (s.prog t).step s.w = some (p, w') →
      CStep env I s { s with w := w', prog := setProg s t p, log := s.log ++ entries t s.w w' }

/-- A state in which the server starts: no request was handled yet, so there is no parent (src/xkernel_core.cpp:46-47), and
what arrived so far is taken to arrive from now on.  The interpreter has been configured, so that anything may have happened to
its own state, the comms and the targets; what was sent meanwhile is not part of the record that begins here
(`Verif/Build/Props.lean`, C82). -/
structure Start (σ : Type) where
  w : World σ
  parent : w.parent = fun _ => ⟨[], .obj []⟩
  count : w.count = 0
  shellQ : w.shellQ = []
  out : w.out = []

/-- A kernel whose interpreter did nothing when it was configured. -/
def Start.fresh {σ : Type} (st : σ) : Start σ := ⟨World.initial st [] [], rfl, rfl, rfl, rfl⟩

instance {n : Nat} : OfNat (Start Nat) n := ⟨Start.fresh n⟩

/-- Reachable states. -/
inductive CReach {σ : Type} (env : Env) (I : Interp σ) (st : Start σ) : Conc σ → Prop
  | start : CReach env I st ⟨st.w, fun _ => .done (.ok ()), [], []⟩
  | step {s s' : Conc σ} : CReach env I st s → CStep env I s s' → CReach env I st s'

end Xeus
