import Verif.KernelConc.Model

/-!
# Handlers that ask the shell thread: the model

`xzmq_messenger::send_to_shell_impl` (src/xzmq_messenger.cpp:59-66), used by the split servers, does not call the kernel core
as the messenger of the default server does (`sendToShell`): it sends the dumped message to the shell thread and waits for
the answer.  `A S α` is a computation as `K S α` that may also do that; `dispatchA` is `dispatch` with this way of sending.
Only the handler of debug requests is given a messenger (include/xeus/xdebugger.hpp), so the other handlers are unchanged.
-/

namespace Xeus

/-- A computation: finished, one atomic access to the state, or a question to the shell thread, each followed by the rest. -/
inductive A (S α : Type) : Type 1 where
  | done (r : Res α)
  | act {β : Type} (f : S → Res β × S) (k : Except Exc β → A S α)
  | ask (text : Frame) (k : Except Exc Frame → A S α)

namespace A

variable {S α β : Type}

/-- Sequencing. -/
def bind : A S α → (α → A S β) → A S β
  | done (.ok a), g => g a
  | done (.exc e), _ => done (.exc e)
  | done (.ub w), _ => done (.ub w)
  | done .hang, _ => done .hang
  | act f k, g => act f fun r => (k r).bind g
  | ask t k, g => ask t fun r => (k r).bind g

instance : Monad (A S) where
  pure a := done (.ok a)
  bind := bind

/-- `try { m } catch (...) { … }`. -/
def attempt : A S α → A S (Except Exc α)
  | done (.ok a) => done (.ok (.ok a))
  | done (.exc e) => done (.ok (.error e))
  | done (.ub w) => done (.ub w)
  | done .hang => done .hang
  | act f k => act f fun r => (k r).attempt
  | ask t k => ask t fun r => (k r).attempt

/-- `throw e`. -/
def throw (e : Exc) : A S α := done (.exc e)

/-- `try { m } catch (std::exception& e) { h }`. -/
def catchStd (m : A S α) (h : Exc → A S α) : A S α := do
  match ← m.attempt with
  | .ok a => pure a
  | .error e => if e.isStd then h e else throw e

/-- A computation that asks nothing. -/
def ofK : K S α → A S α
  | .done r => done r
  | .act f k => act f fun r => ofK (k r)

/-- A computation that does not touch the state. -/
def ofRes (r : Res α) : A S α := done r

/-- The question, and its answer. -/
def question (t : Frame) : A S Frame :=
  ask t fun
    | .ok r => done (.ok r)
    | .error e => done (.exc e)

/-- One step; a question is not one (`Duo.Step.call`). -/
def step (m : A S α) (s : S) : Option (A S α × S) :=
  match m with
  | done _ => none
  | ask _ _ => none
  | act f k => some (match f s with
    | (.ok b, s') => (k (.ok b), s')
    | (.exc e, s') => (k (.error e), s')
    | (.ub w, s') => (done (.ub w), s')
    | (.hang, s') => (done .hang, s'))

/-- The computation that answers its questions itself. -/
def inline (serve : Frame → K S Frame) : A S α → K S α
  | done r => .done r
  | act f k => .act f fun r => (k r).inline serve
  | ask t k => (serve t).attempt.bind fun r => (k r).inline serve

end A

section
variable {σ : Type} (env : Env) (I : Interp σ)

/-- `xzmq_messenger::send_to_shell_impl` (src/xzmq_messenger.cpp:59-66). -/
def askShell (j : Json) : A (World σ) Json := do
  let text ← A.ofRes (env.J.writeZmq .strict j)
  let rep ← A.question text
  A.ofRes (env.J.parseZmq rep)

/-- The operations of a debugger. -/
def DOp.semA : DOp → A (World σ) Val
  | .base o => A.ofK (o.sem env)
  | .toShell j => do let r ← askShell env j; return .json r

/-- Execution of user code. -/
def Prog.execA {Ω α : Type} (sem : Ω → A (World σ) Val) : Prog σ Ω α → A (World σ) α
  | .ret a => pure a
  | .throw e => A.throw e
  | .ub w => A.ofRes (.ub w)
  | .hang => A.ofRes .hang
  | .get k => do let s ← A.ofK (K.read fun w => w.st); (k s).execA sem
  | .set s k => do A.ofK (K.modify fun w => { w with st := s }); k.execA sem
  | .call o k => do let r ← (sem o).attempt; (k r).execA sem

/-- A call of user code by the kernel. -/
def userCallA {Ω α : Type} (sem : Ω → A (World σ) Val) (k : Call) (p : Prog σ Ω α) : A (World σ) α := do
  A.ofK (emit (.call k))
  match ← (p.execA sem).attempt with
  | .ok a => return a
  | .error e => do
    A.ofK (emit (.threw e))
    A.throw e

/-- `debug_request` (src/xkernel_core.cpp:375-384). -/
def debugRequestA (m : XMessage) (c : Chan) : A (World σ) Unit :=
  match I.debug with
  | none => pure ()
  | some d => do
    let reply ← userCallA (DOp.semA env) (.debug m.body.header m.body.content) (d m.body.header m.body.content)
    let metadata ← A.ofK (getMetadata env)
    A.ofK (sendReply env (lit "debug_reply") metadata reply c)

/-- `(this->*handler)(msg, c)`. -/
def handleA (r : Req) (m : XMessage) (c : Chan) : A (World σ) Unit :=
  match r with
  | .debug => debugRequestA env I m c
  | r => A.ofK (handle env I r m c)

/-- Handling with the surrounding `try`/`catch` (src/xkernel_core.cpp:221-237). -/
def handleTypeA (t : Str) (m : XMessage) (c : Chan) : A (World σ) Unit :=
  match getHandler t with
  | none => pure ()
  | some r => A.catchStd (handleA env I r m c) fun _ => pure ()

/-- What `dispatch` does with a decoded message (src/xkernel_core.cpp:215-239). -/
def dispatchMsgA (m : XMessage) (c : Chan) : A (World σ) Unit := do
  A.ofK (logK env (.received (some c) m))
  A.ofK (setParent m.ids m.body.header c)
  A.ofK (publishStatus env (lit "busy") c)
  let t ← A.ofRes (m.body.header.value (lit "msg_type") Json.getStr [])
  handleTypeA env I t m c
  A.ofK (publishStatus env (lit "idle") c)

/-- `dispatch` (src/xkernel_core.cpp:201-240). -/
def dispatchA (wire : Multipart) (c : Chan) : A (World σ) Unit := do
  match ← A.ofK (K.ofRes (deserialize env.C env.J env.auth wire)).attempt with
  | .error e => if e.isStd then pure () else A.throw e
  | .ok msg => dispatchMsgA env I msg c

end

end Xeus
