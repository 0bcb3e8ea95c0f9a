import Verif.KernelConc.AnswerSpec
import Verif.Kernel.PropsPublish

/-!
# Interpreters that keep to themselves: specifications

What an interpreter has to do, and what clients have to send, in order that a kernel neither fails nor gets stuck.
-/

namespace Xeus.Spec

open Xeus

variable {σ : Type}

/-- User code that ends, whatever it finds in its state: it may look at the header of the request and publish messages, and does
nothing else with the kernel.  It may throw `std::exception`s only if `thr`.  Publishing succeeds if the message can be printed;
otherwise it may throw a `type_error`. -/
def Mild {α : Type} (eh : ErrH) (thr : Prop) : Prog σ Op α → Prop
  | .ret _ => True
  | .throw e => thr ∧ e.isStd = true
  | .ub _ => False
  | .hang => False
  | .get k => ∀ s, Mild eh thr (k s)
  | .set _ k => Mild eh thr k
  | .call (.pub p) k => Mild eh thr (k (.ok .unit)) ∧ (¬ Printable eh (pubContent p) → Mild eh thr (k (.error .typeError)))
  | .call .parentHeader k => ∀ h, Parsed h → Mild eh thr (k (.ok (.json h)))
  | .call _ _ => False

/-- All user code that requests make the kernel call is mild, for arguments as they come from requests; there is no debugger. -/
structure MildInterp (eh : ErrH) (thr : Prop) (I : Interp σ) : Prop where
  execute : ∀ n code silent store exprs allow, InInt n → Utf8 code → Parsed exprs →
    Mild eh thr (I.execute n code silent store exprs allow)
  complete : ∀ code pos, Utf8 code → InInt pos → Mild eh thr (I.complete code pos)
  inspect : ∀ code pos detail, Utf8 code → InInt pos → InInt detail → Mild eh thr (I.inspect code pos detail)
  isComplete : ∀ code, Utf8 code → Mild eh thr (I.isComplete code)
  kernelInfo : Mild eh thr I.kernelInfo
  shutdown : Mild eh thr I.shutdown
  debug : I.debug = none

/-- The interpreter never throws, whatever the request. -/
abbrev Plain (eh : ErrH) (I : Interp σ) : Prop := MildInterp eh False I

/-- The interpreter may throw `std::exception`s. -/
abbrev Tame (eh : ErrH) (I : Interp σ) : Prop := MildInterp eh True I

/-- What the interpreter returns can be sent as a reply. -/
structure Answers (eh : ErrH) (I : Interp σ) : Prop where
  execute : ∀ n code silent store exprs allow, Utf8 code → Parsed exprs →
    Yields (fun j => j.isObj = true ∧ Printable eh j ∧ ∃ s, strField j "status" "error" = some s)
      (I.execute n code silent store exprs allow)
  complete : ∀ code pos, Utf8 code → InInt pos → Yields (Printable eh) (I.complete code pos)
  inspect : ∀ code pos detail, Utf8 code → InInt pos → InInt detail → Yields (Printable eh) (I.inspect code pos detail)
  isComplete : ∀ code, Utf8 code → Yields (Printable eh) (I.isComplete code)
  kernelInfo : Yields (fun j => j.isObj = true ∧ Printable eh j) I.kernelInfo

/-- No execution is reported as an error. -/
def Cheerful (I : Interp σ) : Prop :=
  ∀ n code silent store exprs allow, Utf8 code → Parsed exprs →
    Yields (fun j => strField j "status" "error" ≠ some (lit "error")) (I.execute n code silent store exprs allow)

/-- The content of a request of kind `r` does not lead to undefined behaviour of the kernel as long as there is no comm, `targets`
being the names of the registered targets: numbers are `int`s, history is asked for with numbers that are not negative,
comms are opened only for targets that do not exist, and identifiers of comms are not too long. -/
def Harmless (targets : List Str) (content : Json) : Req → Prop
  | .execute => ¬ ExecWild content
  | .complete => ¬ CompleteWild content
  | .inspect => ¬ InspectWild content
  | .history => (∀ n, intField content "n" 10 = some n → 0 ≤ n) ∧ (∀ s, intField content "start" 1 = some s → 0 ≤ s) ∧
      ∀ k ∈ ["n", "session", "start", "stop"], ¬ Wild content k
  | .commOpen => NotText content "target_name" ∨ ∃ name, content.find? (lit "target_name") = some (.str name) ∧ name ∉ targets
  | .commClose | .commMsg => NotText content "comm_id" ∨ ∃ id, content.find? (lit "comm_id") = some (.str id) ∧ id.length ≤ 55
  | _ => True

/-- A multipart message that does not lead to undefined behaviour: if it is accepted, its type is a text, and its content is
harmless if that is the type of a request. -/
def Proper (env : Env) (targets : List Str) (q : Multipart) : Prop :=
  ¬ Undefined env.J env.auth q ∧ ∀ m, Accepted env.C env.J env.auth q m →
    (∃ t, typeOf m.body.header = some t) ∧ ∀ r, IsReq m r → Harmless targets m.body.content r

/-- A shutdown request. -/
def Shuts (env : Env) (q : Multipart) : Prop := ∃ m, Accepted env.C env.J env.auth q m ∧ IsReq m .shutdown

/-- The messages the threads have received so far. -/
def received : List Act → List Multipart
  | [] => []
  | .took _ q :: r => q :: received r
  | .drained _ q :: r => q :: received r
  | .did _ _ :: r => received r

/-- All messages that arrived so far. -/
def arrived (s : Conc σ) : List Multipart := received s.log ++ s.controlQ ++ s.w.shellQ

/-- The kernel starts without comms and with an empty history. -/
def Blank (st : Start σ) : Prop := st.w.comm.reg = [] ∧ st.w.hist = []

/-- The names of the targets registered when the kernel starts. -/
def targetNames (st : Start σ) : List Str := st.w.comm.names.map (·.1)

/-- The fields of a request of kind `r` have the documented types.  Patterns for the history contain neither backslashes, which
regular expressions treat as special, nor NUL bytes. -/
def Documented (content : Json) : Req → Prop
  | .execute => ∃ f, execFields content = some f
  | .complete => ∃ f, completeFields content = some f
  | .inspect => ∃ f, inspectFields content = some f
  | .isComplete => ∃ code, codeField content = some code
  | .history => content.isObj = true ∧ (∃ a, strField content "hist_access_type" "tail" = some a) ∧
      (∃ p, strField content "pattern" "*" = some p ∧ 92 ∉ p ∧ 0 ∉ p) ∧ (∃ b, boolField content "raw" true = some b) ∧
      (∃ b, boolField content "output" false = some b) ∧ (∃ b, boolField content "unique" false = some b) ∧
      (∃ n, intField content "n" 10 = some n) ∧ (∃ n, intField content "session" 0 = some n) ∧
      (∃ n, intField content "start" 1 = some n) ∧ ∃ n, intField content "stop" 10 = some n
  | .commInfo => ∃ t, targetField content = some t
  | .kernelInfo | .interrupt => True
  | .shutdown => ∃ b, restartField content = some b
  | .debug | .commOpen | .commClose | .commMsg => False

/-- All messages that arrived at a server. -/
def arrivals (log : List SEv) : List Multipart := arrivedOn .shell log ++ arrivedOn .control log

/-- The messages in `l` do not lead to undefined behaviour, and there are not so many that counting them overflows an `int`. -/
def Traffic {σ : Type} (env : Env) (st : Start σ) (l : List Multipart) : Prop :=
  (∀ q ∈ l, Proper env (targetNames st) q) ∧ (l.length : Int) ≤ intMax

/-- According to the log of a server, message number `k` of socket `t` was `q`, it was handled, and until the next message of that
socket began to be handled, the replies sent on its behalf were exactly one to it, followed by `ab`. -/
def Replied (env : Env) (log : List SEv) (t : Chan) (k : Nat) (q : Multipart) (m : XMessage) (r : Req) (ab : List Ev) : Prop :=
  ∃ l₀ l₁ l₂ rt rep, log = l₀ ++ .act (.took t q) :: (l₁ ++ l₂) ∧ (takenFrom t l₀).length = k ∧
    (∀ x, SEv.act (.took t x) ∉ l₁) ∧ replyType r = some rt ∧ IsReply env t m.ids m.body.header (lit rt) rep ∧
    repliesIn (eventsOf t (actsIn l₁)) = rep :: ab

end Xeus.Spec
