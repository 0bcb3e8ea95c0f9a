import Verif.Debugger.Model

/-!
# A kernel whose debugger is `xdebugger_base`: the model

Puts together the kernel (`Verif/Kernel`), for which a debugger is an arbitrary program run by `debug_request`, and the
debugger of src/xdebugger_base.cpp (`Verif/Debugger`), for which requests come from nowhere.  `xdebugger::process_request`
(src/xdebugger.cpp:31-35) only calls `process_request_impl`.

The interpreter and the debugger have states of their own: code shared by the two beyond the interface of the library is not
modelled, and neither is the interpreter calling its own debugger.
-/

namespace Xeus

variable {τ S : Type}

/-- A program for an interpreter with the state `τ`, in a process where there is something else besides. -/
def Prog.beside {Ω α : Type} : Prog τ Ω α → Prog (τ × S) Ω α
  | .ret a => .ret a
  | .throw e => .throw e
  | .ub w => .ub w
  | .hang => .hang
  | .get k => .get fun p => (k p.1).beside
  | .set s k => .get fun p => .set (s, p.2) k.beside
  | .call o k => .call o fun r => (k r).beside

/-- What an access to the debugger does next. -/
def afterAccess {Ω α β : Type} (k : Except Exc β → Prog (τ × S) Ω α) : Res β → Prog (τ × S) Ω α
  | .ok b => k (.ok b)
  | .exc e => k (.error e)
  | .ub w => .ub w
  | .hang => .hang

/-- A member function of the debugger, as a program of the kernel. -/
def K.asProg {Ω α : Type} : K S α → Prog (τ × S) Ω α
  | .done (.ok a) => .ret a
  | .done (.exc e) => .throw e
  | .done (.ub w) => .ub w
  | .done .hang => .hang
  | .act f k => .get fun p => .set (p.1, (f p.2).2) (afterAccess (fun r => (k r).asProg) (f p.2).1)

/-- A kernel with the interpreter `I` and the debugger `d`: `debug_request` calls `process_request`
(src/xkernel_core.cpp:375-384, src/xdebugger.cpp:31-35, src/xdebugger_base.cpp:315-380). -/
def debugKernel {ρ : Type} (I : Interp τ) (d : Dbg.Debugger ρ) : Interp (τ × Dbg.State ρ) where
  execute n code silent store exprs allow := (I.execute n code silent store exprs allow).beside
  complete code pos := (I.complete code pos).beside
  inspect code pos detail := (I.inspect code pos detail).beside
  isComplete code := (I.isComplete code).beside
  kernelInfo := I.kernelInfo.beside
  shutdown := I.shutdown.beside
  internal j := (I.internal j).beside
  target cb k m := (I.target cb k m).beside
  handler n m := (I.handler n m).beside
  debug := some fun header m => (Dbg.processRequest d header m).asProg

/-- What is received: a message, by the kernel, or an event, by the thread of the adapter client
(`m_event_callback`, src/xdap_tcp_client.cpp:53-55, made by `get_event_callback`, src/xdebugger_base.cpp:59-62). -/
inductive Received where
  | message (c : Chan) (q : Multipart)
  | event (m : Json)

/-- Sessions: messages and events handled one after the other.  In between, the contents of the sockets of the kernel may
change in any way. -/
inductive Debugged {ρ : Type} (env : Env) (I : Interp τ) (d : Dbg.Debugger ρ) (w₀ : World (τ × Dbg.State ρ)) :
    List Received → World (τ × Dbg.State ρ) → Prop
  | start : Debugged env I d w₀ [] w₀
  | sockets {l w} (A B : List Multipart) : Debugged env I d w₀ l w → Debugged env I d w₀ l { w with shellQ := A, stdinQ := B }
  | message {l w w'} (c : Chan) (q : Multipart) : Debugged env I d w₀ l w →
      (dispatch env (debugKernel I d) q c).run w = (.ok (), w') → Debugged env I d w₀ (l ++ [.message c q]) w'
  | event {l w r s} (m : Json) : Debugged env I d w₀ l w →
      (Dbg.handleEvent d m).attempt.run w.st.2 = (.ok r, s) →
      Debugged env I d w₀ (l ++ [.event m]) { w with st := (w.st.1, s) }

end Xeus
