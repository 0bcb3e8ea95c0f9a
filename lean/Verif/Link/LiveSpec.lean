import Verif.Link.Spec

/-!
# The debugger and the debug adapter client together: conditions on the other parties

The vocabulary of the properties C87 to C90: what is required of the adapter, of the event handler of the kernel author and of
the requests of the frontend.
-/

namespace Xeus.Link.Spec

open Xeus Xeus.Spec

/-- What happened since the client was last launched. -/
def sinceStart (log : List LinkEv) : List LinkEv := (log.reverse.takeWhile fun e => e ≠ .dbg (.start true)).reverse

/-- The bytes received from the adapter. -/
def received (log : List LinkEv) : Str := (log.filterMap fun | .sent b => some b | _ => none).flatten

/-- The requests that the client has received from the debugger, those that it has passed on to the adapter, and the answers that
it has sent to the debugger, each as it was. -/
def requested (log : List LinkEv) : List Str := log.filterMap fun | .took m => some m | _ => none
def passed (log : List LinkEv) : List Str := log.filterMap fun | .cli (.tcp m) => some m | _ => none
def replied (log : List LinkEv) : List Str := log.filterMap fun | .cli (.reply b) => some b | _ => none

/-- The messages that are not events. -/
def answers (J : Codec) (ms : List DapMsg) : List Str := (bodies ms).filter fun raw => !isEventText J raw

/-- A message of the adapter protocol: a JSON object, in which an event has a name. -/
def Proper (J : Codec) (raw : Str) : Prop :=
  ∃ kvs, J.parse raw = some (.obj kvs) ∧
    (memberIs (.obj kvs) "type" "event" = true → ∃ name, (Json.obj kvs).find? (lit "event") = some (.str name))

/-- What the adapter has sent are messages of the adapter protocol, of which the last may not be complete, and it has not sent more
answers than it has been sent requests. -/
def SoFarPolite (J : Codec) (log : List LinkEv) : Prop :=
  ∃ ms : List DapMsg, (∀ m ∈ ms, m.Ok ∧ Proper J m.body) ∧ received log <+: wireOfMsgs ms ∧
    (answers J ms).length ≤ (passed log).length

/-- It has been so at all times, for each connection with the adapter. -/
def PoliteAdapter (J : Codec) (log : List LinkEv) : Prop := ∀ pre, pre <+: log → SoFarPolite J (sinceStart pre)

/-- An event handler that does not throw, forwards events that can be printed and that the callback accepts, and does not talk to
the adapter itself. -/
inductive Civil {σ α : Type} (cl : Client σ) : Prog σ DapOp α → Prop
  | ret {a} : Civil cl (.ret a)
  | get {k} : (∀ s, Civil cl (k s)) → Civil cl (.get k)
  | set {s k} : Civil cl k → Civil cl (.set s k)
  | forward {j k} : j.canon = true → JsonUtf8 j → (∀ st, ∃ st', cl.callback j st = (.ok (), st')) → Civil cl (k (.ok .unit)) →
      Civil cl (.call (.forward j) k)
  | parent {k} : (∀ h, Civil cl (k (.ok (.str h)))) → Civil cl (.call .parentHeader k)

/-- What is required of the client: it does not wait for an attach request, the code of the kernel author does not fail, and the
names in its headers are UTF-8 text. -/
structure CivilClient {σ : Type} (cl : Client σ) : Prop where
  plain : cl.parallel = false
  handler : ∀ kvs name, (Json.obj kvs).canon = true → JsonUtf8 (.obj kvs) → (Json.obj kvs).find? (lit "event") = some (.str name) →
    Civil cl (cl.onEvent (.obj kvs))
  user : Utf8 cl.env.user
  session : Utf8 cl.env.session
  now : ∀ n, Utf8 (cl.env.now n)

/-- The headers of the requests of the frontend are JSON values as they come from a parser. -/
def CanonHeaders (log : List LinkEv) : Prop := ∀ header m, LinkEv.call header m ∈ log → header.canon = true

/-- The adapter has stopped in the middle of a message. -/
def MidMessage (log : List LinkEv) : Prop := ∀ ms : List DapMsg, (∀ m ∈ ms, m.Ok) → received log ≠ wireOfMsgs ms

/-- One of the two threads goes on. -/
def Internal {τ σ : Type} (d : Dbg.Debugger τ) (cl : Client σ) (s s' : Link τ σ) : Prop :=
  Step d cl s s' ∧ (s'.pc ≠ s.pc ∨ (s.ctl ≠ none ∧ s'.ctl ≠ s.ctl))

/-- What may follow a state. -/
inductive After {τ σ : Type} (d : Dbg.Debugger τ) (cl : Client σ) (s : Link τ σ) : Link τ σ → Prop
  | now : After d cl s s
  | step {t t' : Link τ σ} : After d cl s t → Step d cl t t' → After d cl s t'

/-- The requests that the debugger has sent towards the adapter, and the answers that it has received. -/
def forwarded (log : List LinkEv) : List Str := log.filterMap fun | .dbg (.request m) => some m | _ => none
def returned (log : List LinkEv) : List Str := log.filterMap fun | .answered r => some r | _ => none

end Xeus.Link.Spec
