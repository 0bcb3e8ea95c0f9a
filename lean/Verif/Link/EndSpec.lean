import Verif.Link.LiveSpec

/-!
# The debugger and the debug adapter client together: the end of a session

The vocabulary of the properties C91 and C92.
-/

namespace Xeus.Link.Spec

open Xeus Xeus.Spec

/-- The client has passed on an answer to a `disconnect` request. -/
def disconnected (J : Codec) (log : List LinkEv) : Bool := (replied log).any (isDisconnectText J)

/-- The adapter owes nothing: what it has sent are complete messages, and among them is an answer to each request it has been
sent. -/
def AllAnswered (J : Codec) (log : List LinkEv) : Prop :=
  ∃ ms : List DapMsg, (∀ m ∈ ms, m.Ok) ∧ received log = wireOfMsgs ms ∧ (answers J ms).length = (passed log).length

/-- Every exchange between the debugger and the client is complete. -/
def Complete (log : List LinkEv) : Prop := ∃ rounds, exchanged log = happens rounds

/-- A handler of the kernel author that does not loop for ever by itself. -/
inductive NoLoop {σ α : Type} : Prog σ Dbg.Op α → Prop
  | ret {a} : NoLoop (.ret a)
  | throw {e} : NoLoop (.throw e)
  | ub {w} : NoLoop (.ub w)
  | get {k} : (∀ s, NoLoop (k s)) → NoLoop (.get k)
  | set {s k} : NoLoop k → NoLoop (.set s k)
  | call {o k} : (∀ r, NoLoop (k r)) → NoLoop (.call o k)

/-- The functions of the kernel author return. -/
structure Returns {τ : Type} (d : Dbg.Debugger τ) : Prop where
  start : ∀ st, (d.start st).1 ≠ .hang
  stop : ∀ st, (d.stop st).1 ≠ .hang
  info : ∀ st, d.info st ≠ .hang
  cellFile : ∀ code st, d.cellFile code st ≠ .hang
  requests : ∀ name b f, (name, b, Dbg.Handler.user f) ∈ d.requests → ∀ m, NoLoop (f m)

/-- The debugger is in the call of `start`, which is about to succeed, though an earlier run of the client has not ended. -/
def StartsAgain {τ σ : Type} (s : Link τ σ) : Prop :=
  s.pc ≠ .off ∧ ∃ p p' t, s.ctl = some p ∧ p.step s.dbg = some (p', t) ∧ Starts s.dbg t

end Xeus.Link.Spec
