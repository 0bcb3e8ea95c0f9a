import Verif.Link.Model
import Verif.Debugger.Spec
import Verif.Dap.Spec

/-!
# The debugger and the debug adapter client together: specifications

The vocabulary of the properties C84 to C86.  Of the model it uses the record of what happened and the description of the
kernel author's code only.
-/

namespace Xeus.Link.Spec

open Xeus Xeus.Spec

/-! ## Rounds -/

/-- What the control thread does, with the other side of each exchange. -/
inductive Round where
  | call (header m : Json)
  | ret (r : Res Json)
  | start (ok : Bool)
  | stop
  /-- a header is sent, received and acknowledged -/
  | header (h : Str)
  /-- the request `m` is sent, received and answered by `r`, which is received -/
  | request (m r : Str)
  deriving DecidableEq, Repr

/-- What happens in a round, in this order. -/
def Round.events : Round → List LinkEv
  | .call hd m => [.call hd m]
  | .ret r => [.ret r]
  | .start b => [.dbg (.start b)]
  | .stop => [.dbg .stop]
  | .header h => [.dbg (.header h), .cli (.header h), .acked (lit "ACK")]
  | .request m r => [.dbg (.request m), .took m, .cli (.reply r), .answered r]

/-- What happens in several rounds, one after the other. -/
def happens (rounds : List Round) : List LinkEv := rounds.flatMap Round.events

/-- Everything except what passes between the client and the adapter, the publisher and the user code. -/
def exchanged (log : List LinkEv) : List LinkEv :=
  log.filter fun
    | .sent _ | .cli (.tcp _) | .cli (.pub _ _) | .cli (.callback _) | .cli (.event _) => false
    | _ => true

/-- The exchanges are complete rounds, one after the other, except that the last one may be under way. -/
def InRounds (log : List LinkEv) : Prop :=
  ∃ rounds part R, exchanged log = happens rounds ++ part ∧ part <+: Round.events R ∧ part ≠ Round.events R

/-- A request round, in which a well formed request has been sent. -/
def IsRequest (J : Codec) : Round → Prop
  | .request m _ => ∃ j b, J.dump .strict j = some b ∧ m = dapFrame b
  | _ => False

/-- What the processing of one request consists of: possibly a start; if anything is sent, the header of this very request
first, once; requests; possibly a stop. -/
structure CallRounds (J : Codec) (header : Json) (rounds : List Round) : Prop where
  shape : ∃ begin_ middle end_, rounds = begin_ ++ middle ++ end_ ∧ (begin_ = [] ∨ ∃ b, begin_ = [.start b]) ∧
    (end_ = [] ∨ end_ = [.stop]) ∧
    (middle = [] ∨ ∃ h reqs, J.dump .strict header = some h ∧ middle = .header h :: reqs ∧ ∀ x ∈ reqs, IsRequest J x)

/-- The state of the debugger according to the record: started by a successful start, stopped by a failing one or a stop. -/
def running (log : List LinkEv) : Bool :=
  (log.filterMap fun
    | .dbg (.start b) => some b
    | .dbg .stop => some false
    | _ => none).getLast?.getD false

/-- No further request of the frontend. -/
def NoCall (l : List LinkEv) : Prop := ∀ header m, LinkEv.call header m ∉ l

/-! ## The client's side -/

/-- What the client did. -/
def clientLog (log : List LinkEv) : List LinkEv :=
  log.filter fun
    | .took _ | .cli _ => true
    | _ => false

/-- Each request received goes to the adapter as it is before the client does anything else. -/
def PassedOn (log : List LinkEv) : Prop :=
  ∀ pre m e post, clientLog log = pre ++ .took m :: e :: post → e = .cli (.tcp m)

end Xeus.Link.Spec
