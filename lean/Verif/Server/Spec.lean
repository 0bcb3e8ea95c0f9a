import Verif.Server.Model
import Verif.Kernel.Spec
import Verif.Server.Live

/-!
# Servers: specifications
-/

namespace Xeus.Spec

open Xeus

/-- The messages that arrived on a socket. -/
def arrivedOn (c : Chan) : List SEv → List Multipart
  | [] => []
  | .arrived c' q :: r => if c' = c then q :: arrivedOn c r else arrivedOn c r
  | _ :: r => arrivedOn c r

/-- The messages received from a socket: those to be handled and, on the shell socket, those to be aborted. -/
def takenFrom (c : Chan) : List SEv → List Multipart
  | [] => []
  | .act (.took c' q) :: r => if c' = c then q :: takenFrom c r else takenFrom c r
  | .act (.drained _ q) :: r => if c = .shell then q :: takenFrom c r else takenFrom c r
  | _ :: r => takenFrom c r

/-- How many messages a thread began to handle. -/
def tooks (c : Chan) : List SEv → Nat
  | [] => 0
  | .act (.took c' _) :: r => if c' = c then tooks c r + 1 else tooks c r
  | _ :: r => tooks c r

/-- A socket is fair to a source: while messages of it are waiting and messages are received for ever, one of that source is.
`f` gives the thread reading the socket. -/
def FairSource {S W ι : Type _} {step : W → S → S → Prop} (f : S → Relay ι) (e : Execution step) (i : ι) : Prop :=
  ∀ n, (∀ m, n ≤ m → (f (e.state m)).inq i ≠ []) → (∀ L, ∃ m, L ≤ (f (e.state m)).passed.length) →
    ∃ m, n ≤ m ∧ ∃ x r1, (f (e.state m)).pc = .hold i x r1

/-- The main thread is not handling a message. -/
def Idle {σ : Type} (s : Main σ) : Prop := (∀ rs, s.pc ≠ .control rs) ∧ s.pc ≠ .shell

/-- The messages handled, in order. -/
def handledIn : List SEv → List (Chan × Multipart)
  | [] => []
  | .act (.took c q) :: r => (c, q) :: handledIn r
  | _ :: r => handledIn r

/-- One message after the other, nothing happening in between but that messages arrive: the states of a kernel that has
handled the messages of the first list, those of the second having arrived on the shell socket. -/
inductive Serial {σ : Type} (env : Env) (I : Interp σ) (st : Start σ) : List (Chan × Multipart) → List Multipart → World σ → Prop
  | start : Serial env I st [] [] (st.w)
  | arrive {hs as w} (A B : List Multipart) : Serial env I st hs as w →
      Serial env I st hs (as ++ A) { w with shellQ := w.shellQ ++ A, stdinQ := w.stdinQ ++ B }
  | shell {hs as w w'} (q : Multipart) (r : List Multipart) : Serial env I st hs as w → ¬ stopAsked w → w.shellQ = q :: r →
      (dispatch env I q .shell).run { w with shellQ := r } = (.ok (), w') → Serial env I st (hs ++ [(.shell, q)]) as w'
  | control {hs as w w'} (q : Multipart) : Serial env I st hs as w → ¬ stopAsked w →
      (dispatch env I q .control).run w = (.ok (), w') → Serial env I st (hs ++ [(.control, q)]) as w'

/-- What the handlers did, in order. -/
def eventsIn : List SEv → List Ev
  | [] => []
  | .act (.did _ e) :: r => e :: eventsIn r
  | _ :: r => eventsIn r

/-- The log grew by the receipt of `q` on channel `c` and then by `l₁`, and this is what handling `q` without interruption
does: there is a state `w` of a kernel that handled the messages handled before, one after the other, in which `q` is the next
message, and the handler of `q` run on it ends with `r` in `w'`; the events in `l₁` are those of the run, and the messages
received in `l₁` are those the run took from the shell queue. -/
def HandledAlone {σ : Type} (env : Env) (I : Interp σ) (st : Start σ) (l₀ : List SEv) (c : Chan) (q : Multipart) (l₁ : List SEv)
    (r : Res Unit) (w' : World σ) : Prop :=
  ∃ as w rest, Serial env I st (handledIn l₀) as w ∧ as <+: arrivedOn .shell (l₀ ++ l₁) ∧ ¬ stopAsked w ∧
    w.out = eventsIn l₀ ∧ w.shellQ = (if c = .shell then q :: rest else rest) ∧
    (dispatch env I q c).run { w with shellQ := rest } = (r, w') ∧ w'.out = eventsIn (l₀ ++ l₁) ∧
    rest = takenFrom .shell l₁ ++ w'.shellQ

/-- The reply to a message itself: none, or one of the type that belongs to the type of the message, with its identities and
its header. -/
def OwnReply (env : Env) (c : Chan) (q : Multipart) (own : List Ev) : Prop :=
  own = [] ∨ ∃ m r rt rep, own = [rep] ∧ Accepted env.C env.J env.auth q m ∧ IsReq m r ∧ replyType r = some rt ∧
    IsReply env c m.ids m.body.header (lit rt) rep

/-- The replies sent: for each message handled, in order, its own reply, if any, and then the replies to the messages that were
aborted, one for each of those that can be answered; at most one message cannot, and then no other is aborted by the
same message. The second list has the messages received from the shell socket. -/
inductive Account (env : Env) : List (Chan × Multipart) → List Multipart → List Ev → Prop
  | nil : Account env [] [] []
  | handled {hs tk rs} (c : Chan) (q : Multipart) (own : List Ev) (done stuck : List Multipart) (ab : List Ev) :
      Account env hs tk rs → OwnReply env c q own → AbortAll env done ab → stuck.length ≤ 1 →
      (∀ x ∈ stuck, ¬ Abortable env x) →
      Account env (hs ++ [(c, q)]) (tk ++ ((if c = .shell then [q] else []) ++ done ++ stuck)) (rs ++ (own ++ ab))

/-- According to the log, message number `k` of a socket was `q`, it was handled, and before any other message was
handled a reply was sent to it: the first reply sent, and the only one unless `q` is an execute request. -/
def Answered (env : Env) (log : List SEv) (c : Chan) (k : Nat) (q : Multipart) (m : XMessage) (r : Req) : Prop :=
  ∃ l₀ l₁ l₂ rt rep ab, log = l₀ ++ .act (.took c q) :: (l₁ ++ l₂) ∧ (takenFrom c l₀).length = k ∧
    handledIn l₁ = [] ∧ replyType r = some rt ∧ IsReply env c m.ids m.body.header (lit rt) rep ∧
    repliesIn (eventsIn l₁) = rep :: ab ∧ (r ≠ .execute → ab = [])

/-- According to the log, message number `k` of the shell socket was `q`, it was aborted while another message was handled,
and, if that is possible, an error reply was sent to it before any other message was handled. -/
def AbortedIn (env : Env) (log : List SEv) (k : Nat) (q : Multipart) (m : XMessage) : Prop :=
  ∃ l₀ c q' c' a b l₂, log = l₀ ++ .act (.took c q') :: (a ++ .act (.drained c' q) :: (b ++ l₂)) ∧
    (takenFrom .shell (l₀ ++ .act (.took c q') :: a)).length = k ∧ handledIn (a ++ b) = [] ∧
    (Abortable env q → ∃ rep, rep ∈ eventsIn (a ++ b) ∧ IsAbortReply env m rep)

end Xeus.Spec
