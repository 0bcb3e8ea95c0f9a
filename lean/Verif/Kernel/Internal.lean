import Verif.Kernel.Model

/-!
# The messenger of the split server: the model

Models `xzmq_messenger::send_to_shell_impl` (src/xzmq_messenger.cpp:59-66) and the part of `xshell::run` that serves it
(src/xshell.cpp:70-88).  The control thread waits for the answer on a REQ socket, so that the exchange is one
sequential program; what the shell thread does before it turns to the internal message is not part of it.
-/

namespace Xeus

variable {σ : Type} (env : Env) (I : Interp σ)

/-- The shell thread receives `text` on its internal socket (src/xshell.cpp:70-88): the answer it sends, and whether it
leaves its loop. -/
def shellController (text : Frame) : K (World σ) (Frame × Bool) :=
  if text = lit "stop" then pure (text, true)
  else do
    let rep ← dispatchInternal env I text
    return (rep, false)

/-- `xzmq_messenger::send_to_shell_impl` (src/xzmq_messenger.cpp:59-66): `message.dump()` uses the strict error handler. -/
def sendToShellZmq (j : Json) : K (World σ) Json := do
  let text ← K.ofRes (env.J.writeZmq .strict j)
  let r ← shellController env I text
  K.ofRes (env.J.parseZmq r.1)

/-- The shell thread leaves its loop on receiving the printed form of `j`. -/
def stopsShell (j : Json) : K (World σ) Bool := do
  let text ← K.ofRes (env.J.writeZmq .strict j)
  let r ← shellController env I text
  return r.2

end Xeus
