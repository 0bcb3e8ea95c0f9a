import Verif.KernelConc.Model
import Verif.Kernel.OutSpec

/-!
# Parallel handling of messages: specifications
-/

namespace Xeus.Spec

open Xeus

/-- After `log` the thread of channel `t` is handling `q`. -/
def Handling (log : List Act) (t : Chan) (q : Multipart) : Prop :=
  ∃ a b, log = a ++ .took t q :: b ∧ ∀ q', Act.took t q' ∉ b

/-- While handling its current message the thread of channel `t` has taken `q` from the shell socket in order to
abort it. -/
def Drained (log : List Act) (t : Chan) (q : Multipart) : Prop :=
  ∃ a b, log = a ++ .drained t q :: b ∧ ∀ q', Act.took t q' ∉ b

/-- The events of one thread. -/
def eventsOf (t : Chan) : List Act → List Ev
  | [] => []
  | .did t' e :: r => if t' = t then e :: eventsOf t r else eventsOf t r
  | _ :: r => eventsOf t r

/-- The number of messages one thread took from the shell socket in order to abort them. -/
def abortedBy (t : Chan) : List Act → Nat
  | [] => 0
  | .drained t' _ :: r => if t' = t then abortedBy t r + 1 else abortedBy t r
  | _ :: r => abortedBy t r

/-- What a thread publishes through the socket of the other one: the shell thread notifications of shutdown and
interruption, the control thread what user code publishes. -/
def Foreign (env : Env) (t : Chan) (m : PubMessage) : Prop :=
  ∃ type, WfHeader env type m.body.header ∧
    ((t = .shell ∧ (type = lit "shutdown" ∨ type = lit "interrupt")) ∨ (t = .control ∧ type ∈ outputTypes.map lit))

/-- Who an event of thread `t` after `log` is meant for: a reply is sent on the channel of the thread to the sender of the
message the thread is handling and has its header as parent, or it is sent on the shell channel for a message the thread
took from the shell socket in order to abort it; publications on the channel of the thread have the header of the message
the thread is handling as parent, those on the other channel are `Foreign`; requests for input made by the shell thread go to the sender of that message. -/
def Meant (env : Env) (log : List Act) (t : Chan) : Ev → Prop
  | .reply c m _ =>
      (c = t ∧ ∃ q msg, Handling log t q ∧ Accepted env.C env.J env.auth q msg ∧ m.ids = msg.ids ∧
        m.body.parent = msg.body.header) ∨
      (c = .shell ∧ ∃ q msg, Drained log t q ∧ Accepted env.C env.J env.auth q msg ∧ m.ids = msg.ids ∧
        m.body.parent = msg.body.header)
  | .pub c m _ =>
      (c = t → ∃ q msg, Handling log t q ∧ Accepted env.C env.J env.auth q msg ∧ m.body.parent = msg.body.header) ∧
      (c ≠ t → Foreign env t m)
  | .stdin m _ => t = .shell → ∃ q msg, Handling log t q ∧ Accepted env.C env.J env.auth q msg ∧ m.ids = msg.ids ∧
      m.body.parent = msg.body.header
  | _ => True

end Xeus.Spec
