import Verif.Server.Duo
import Verif.Kernel.Spec

/-!
# What the threads of the split servers touch: specifications
-/

namespace Xeus.Spec

open Xeus

/-- The parts of the state that the shell thread and the control thread share.  (The record of what was sent, the numbers of GUIDs and
clock readings drawn and the record of comm operations are not variables of the program.) -/
inductive Part where
  /-- the own state of interpreter and debugger -/
  | user
  /-- `m_execution_count` -/
  | count
  /-- `m_input_reply_handler` and what it refers to -/
  | input
  /-- the history manager -/
  | history
  /-- the comm manager and the comms -/
  | comms
  /-- `m_parent_id[c]` -/
  | ids (c : Chan)
  /-- `m_parent_header[c]` -/
  | header (c : Chan)
  /-- the shell socket -/
  | shellSocket
  /-- the stdin socket -/
  | stdinSocket
  deriving DecidableEq, Repr

/-- The state `w` with one part as in `v`. -/
def graft {σ : Type} (w v : World σ) : Part → World σ
  | .user => { w with st := v.st }
  | .count => { w with count := v.count }
  | .input => { w with input := v.input }
  | .history => { w with hist := v.hist }
  | .comms => { w with comm := v.comm }
  | .ids c => { w with parent := fun c' => if c' = c then ⟨(v.parent c').ids, (w.parent c').header⟩ else w.parent c' }
  | .header c => { w with parent := fun c' => if c' = c then ⟨(w.parent c').ids, (v.parent c').header⟩ else w.parent c' }
  | .shellSocket => { w with shellQ := v.shellQ }
  | .stdinSocket => { w with stdinQ := v.stdinQ }

/-- An access neither reads nor changes this part: whatever is there, the result and what happens to everything else are the
same, and it is there afterwards. -/
def Untouched {σ β : Type} (p : Part) (f : World σ → Res β × World σ) : Prop :=
  ∀ w v, f (graft w v p) = ((f w).1, graft (f w).2 v p)

/-- User code that makes no calls (other than those `ok`). -/
def Calls {σ Ω α : Type} (ok : Ω → Prop) : Prog σ Ω α → Prop
  | .ret _ | .throw _ | .ub _ | .hang => True
  | .get k => ∀ s, Calls ok (k s)
  | .set _ k => Calls ok k
  | .call o k => ok o ∧ ∀ r, Calls ok (k r)

/-- Requests whose handlers, and the user code they call, keep to the state of the interpreter and debugger; the debugger may send
requests to the shell thread. -/
def Lone {σ : Type} (I : Interp σ) : Req → Prop
  | .shutdown => Calls (fun _ => False) I.shutdown
  | .interrupt => True
  | .debug => ∀ d, I.debug = some d → ∀ h c, Calls (fun o => ∃ j, o = .toShell j) (d h c)
  | .kernelInfo => Calls (fun _ => False) I.kernelInfo
  | .complete => ∀ code pos, Calls (fun _ => False) (I.complete code pos)
  | .inspect => ∀ code pos detail, Calls (fun _ => False) (I.inspect code pos detail)
  | .isComplete => ∀ code, Calls (fun _ => False) (I.isComplete code)
  | .execute | .history | .commInfo | .commOpen | .commClose | .commMsg => False

/-- Every message the control thread has taken is, if it is accepted, a `Lone` request or of unknown type. -/
def ControlLone {σ : Type} (env : Env) (I : Interp σ) (s : Duo σ) : Prop :=
  ∀ q m r, DEv.ev (.act (.took .control q)) ∈ s.log → Accepted env.C env.J env.auth q m → IsReq m r → Lone I r

/-- No message the shell thread has taken is a shutdown or interrupt request. -/
def ShellPlain {σ : Type} (env : Env) (s : Duo σ) : Prop :=
  ∀ q m r, DEv.ev (.act (.took .shell q)) ∈ s.log → Accepted env.C env.J env.auth q m → IsReq m r → r ≠ .shutdown ∧ r ≠ .interrupt

/-- `f` is the next access of the control thread. -/
def ControlNext {σ β : Type} (s : Duo σ) (f : World σ → Res β × World σ) : Prop :=
  s.kpc = .busy ∧ ∃ k, s.cprog = .act f k

/-- `f` is the next access of the shell thread, for a message or for an internal request. -/
def ShellNext {σ β : Type} (s : Duo σ) (f : World σ → Res β × World σ) : Prop :=
  (∃ r, s.spc = .busy r ∧ ∃ k, s.sprog = .act f k) ∨ (s.spc = .echo ∧ ∃ k, s.inner = some (.act f k))

/-- The parts that belong to the control thread. -/
def OfControl (p : Part) : Prop := p = .ids .control ∨ p = .header .control

end Xeus.Spec
