import Verif.Server.Duo
import Verif.Server.Live

/-!
# The split servers with internal requests: what is claimed about them
-/

namespace Xeus.Spec

/-- The exchanges between control and shell thread. -/
def exchanges : List DEv → List DEv
  | [] => []
  | .ev _ :: r => exchanges r
  | e :: r => e :: exchanges r

/-- The rest. -/
def served : List DEv → List SEv
  | [] => []
  | .ev e :: r => e :: served r
  | _ :: r => served r

/-- One internal request: sent, received, answered, and the answer received. -/
def round (x : Frame × Frame) : List DEv := [.asked x.1, .began x.1, .ended x.2, .got x.2]

/-- Something thread `t` did. -/
def byThread (t : Chan) : DEv → Bool
  | .ev (.act a) => a.thread = t
  | _ => false

/-- A debugger that sends only these values to the shell thread. -/
def Sends {σ α : Type} (P : Json → Prop) : Prog σ DOp α → Prop
  | .ret _ | .throw _ | .ub _ | .hang => True
  | .get k => ∀ s, Sends P (k s)
  | .set _ k => Sends P k
  | .call o k => (∀ j, o = .toShell j → P j) ∧ ∀ r, Sends P (k r)

/-- The debugger sends only values `nl::json` can hold (objects with ordered, distinct keys), given such values. -/
def SendsValues {σ : Type} (I : Interp σ) : Prop :=
  ∀ d, I.debug = some d → ∀ header content, header.canon = true → content.canon = true →
    Sends (fun j => j.canon = true) (d header content)

/-- No handler has failed, and the shell thread is not waiting for itself. -/
def Well {σ : Type} (s : Duo σ) : Prop :=
  (∀ r, s.cprog = .done r → r = .ok ()) ∧ (∀ r, s.sprog = .done r → r = .ok ()) ∧ (∀ t k, s.sprog ≠ .ask t k) ∧
    ∀ r, s.inner = some (.done r) → ∃ a, r = .ok a

/-- The control thread has aborted no shell message. -/
def Undrained {σ : Type} (s : Duo σ) : Prop := ∀ q, DEv.ev (.act (.drained .control q)) ∉ s.log

/-- The shell thread cannot go on: what it performs has failed (or takes for ever), or it waits for itself. -/
def Halted {σ : Type} (s : Duo σ) : Prop :=
  (∃ r, s.spc = .busy r ∧ ((∃ e, s.sprog = .done e ∧ e ≠ .ok ()) ∨ ∃ t k, s.sprog = .ask t k)) ∨
  (s.spc = .echo ∧ ∃ e, s.inner = some (.done e) ∧ ∀ a, e ≠ .ok a)

end Xeus.Spec
