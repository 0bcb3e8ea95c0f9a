import Verif.KernelConc.Spec
import Verif.Server.Spec

/-!
# Replies under parallel handling: specifications
-/

namespace Xeus.Spec

open Xeus

/-- Whatever state the user code finds and whatever its calls result in, it returns, if it returns, a value satisfying `P`. -/
def Yields {σ Ω α : Type} (P : α → Prop) : Prog σ Ω α → Prop
  | .ret a => P a
  | .throw _ => True
  | .ub _ => True
  | .hang => True
  | .get k => ∀ s, Yields P (k s)
  | .set _ k => Yields P k
  | .call _ k => ∀ r, Yields P (k r)

/-- The fields of the request `m` of kind `r` have the documented types, and user code returns only answers that can be sent; for
requests answered from the state `w` of the kernel, that answer can be sent. -/
def Obliging {σ : Type} (env : Env) (I : Interp σ) (m : XMessage) (w : World σ) : Req → Prop
  | .execute => ∃ f, execFields m.body.content = some f ∧ ∀ n,
      Yields (fun j => (j.isObj = true ∨ j = .null) ∧ Printable env.eh j ∧ ∃ s, strField j "status" "error" = some s)
        (I.execute n f.code f.silent (f.store && !f.silent) f.exprs f.allow)
  | .complete => ∃ code pos, completeFields m.body.content = some (code, pos) ∧
      Yields (Printable env.eh) (I.complete code pos)
  | .inspect => ∃ code pos detail, inspectFields m.body.content = some (code, pos, detail) ∧
      Yields (Printable env.eh) (I.inspect code pos detail)
  | .isComplete => ∃ code, codeField m.body.content = some code ∧ Yields (Printable env.eh) (I.isComplete code)
  | .history => ∃ j, historyRequest env.H w.hist m.body.content = .ok j ∧ Printable env.eh j
  | .commInfo => (∃ wanted, targetField m.body.content = some wanted) ∧ RegistryLive w.comm ∧
      (env.eh = .strict → ∀ id n, registeredTarget w.comm id = some n → Utf8 id ∧ Utf8 n)
  | .kernelInfo => Yields (fun j => (j.isObj = true ∨ j = .null) ∧ Printable env.eh j) I.kernelInfo
  | .shutdown => ∃ b, restartField m.body.content = some b
  | .interrupt => True
  | .debug => ∃ d, I.debug = some d ∧ Yields (Printable env.eh) (d m.body.header m.body.content)
  | .commOpen | .commClose | .commMsg => False

/-- Reachable by an execution all of whose states satisfy `G`. -/
inductive CRun {σ : Type} (env : Env) (I : Interp σ) (st : Start σ) (G : World σ → Prop) : Conc σ → Prop
  | start : G (st.w) → CRun env I st G ⟨st.w, fun _ => .done (.ok ()), [], []⟩
  | step {s s' : Conc σ} : CRun env I st G s → CStep env I s s' → G s'.w → CRun env I st G s'

/-- The messages one thread took from the shell socket in order to abort them. -/
def drainedBy (t : Chan) : List Act → List Multipart
  | [] => []
  | .drained t' q :: r => if t' = t then q :: drainedBy t r else drainedBy t r
  | _ :: r => drainedBy t r

/-- Thread `t` received `q` and has finished handling it: it has received another message or has nothing left to do.  `seg` is
what happened meanwhile. -/
def Over {σ : Type} (s : Conc σ) (t : Chan) (q : Multipart) (seg : List Act) : Prop :=
  ∃ a b, s.log = a ++ .took t q :: (seg ++ b) ∧ (∀ x, Act.took t x ∉ seg) ∧
    ((∃ q' b', b = .took t q' :: b') ∨ (b = [] ∧ s.prog t = .done (.ok ())))

/-- The replies thread `t` sent in `seg` while it handled `q`: first `own`, which is none or one to `q`, then those to the messages it
aborted, in order, one for each of those that can be answered; at most one cannot, and then no other is aborted.  Messages are
aborted only by execute requests that have been answered. -/
def Replies (env : Env) (t : Chan) (q : Multipart) (seg : List Act) (own : List Ev) : Prop :=
  OwnReply env t q own ∧ ∃ done stuck ab, repliesIn (eventsOf t seg) = own ++ ab ∧ drainedBy t seg = done ++ stuck ∧
    AbortAll env done ab ∧ stuck.length ≤ 1 ∧ (∀ x ∈ stuck, ¬ Abortable env x) ∧
    (done ++ stuck ≠ [] → own ≠ [] ∧ ∃ m, Accepted env.C env.J env.auth q m ∧ IsReq m .execute)

/-- What the threads did, in order. -/
def actsIn : List SEv → List Act
  | [] => []
  | .act a :: r => a :: actsIn r
  | _ :: r => actsIn r

/-- According to the log of a server with two threads, message number `k` of socket `t` was `q` and thread `t` handled it, and
before it began to handle another message it sent exactly one reply to it or user code threw an exception. -/
def AnsweredBy (env : Env) (log : List SEv) (t : Chan) (k : Nat) (q : Multipart) (m : XMessage) (r : Req) : Prop :=
  ∃ l₀ l₁ l₂ rt own, log = l₀ ++ .act (.took t q) :: (l₁ ++ l₂) ∧ (takenFrom t l₀).length = k ∧
    (∀ x, SEv.act (.took t x) ∉ l₁) ∧ replyType r = some rt ∧ Replies env t q (actsIn l₁) own ∧
    ((∃ rep, own = [rep] ∧ IsReply env t m.ids m.body.header (lit rt) rep) ∨
      (own = [] ∧ ∃ e, SEv.act (.did t (.threw e)) ∈ l₁))

/-- According to the log of a server with two threads, message number `k` of the shell socket was `q`, a thread aborted it
while it handled another message, and, if that is possible, it sent an error reply before it began with the next message. -/
def AbortedBy (env : Env) (log : List SEv) (k : Nat) (q : Multipart) (m : XMessage) : Prop :=
  ∃ l₀ c q' a b l₂, log = l₀ ++ .act (.took c q') :: (a ++ .act (.drained c q) :: (b ++ l₂)) ∧
    (takenFrom .shell (l₀ ++ .act (.took c q') :: a)).length = k ∧ (∀ x, SEv.act (.took c x) ∉ a ++ b) ∧
    (Abortable env q → ∃ rep, SEv.act (.did c rep) ∈ a ++ b ∧ IsAbortReply env m rep)

end Xeus.Spec
