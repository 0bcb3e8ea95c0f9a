import Verif.Kernel.Model

/-!
# Comms: specifications

What it means to use comms with discipline, and what can then be relied on.
-/

namespace Xeus.Spec

open Xeus

/-! ## Discipline -/

/-- There is a comm `c` at address `a` that has not been moved from. -/
def Alive (s : Comms) (a : Nat) (c : Comm) : Prop := alGet a s.objs = some c ∧ c.moved ≠ some true

/-- No comm has this identifier (apart from those moved from). -/
def IdFree (s : Comms) (id : Str) : Prop := ∀ a c, Alive s a c → c.id ≠ id

/-- There is a registered target at this address. -/
def Usable (s : Comms) (t : Nat) : Prop := ∃ n, alGet t s.nodes = some n ∧ n.managed = true

/-- The act obeys the discipline in state `s`:

* new comms are made for existing registered targets and with identifiers not in use;
* comms that were moved from are not used any more, except that they are destroyed;
* no comm is moved to itself;
* a comm is only destroyed after it was moved from or moved or assigned to, or if it was made from another one
  (a comm made for a target has an uninitialised flag);
* targets are only unregistered when no comm uses them. -/
def Allowed (s : Comms) : CommAct → Prop
  | .op (.new t) g => Usable s t ∧ IdFree s g
  | .op (.newId t id) _ => Usable s t ∧ id.length ≤ 55 ∧ IdFree s id
  | .op (.move a) _ => ∃ c, Alive s a c
  | .op (.copy a) g => (∃ c, Alive s a c) ∧ IdFree s g
  | .op (.moveAssign d a) _ => d ≠ a ∧ (∃ c, Alive s d c) ∧ ∃ c, Alive s a c
  | .op (.copyAssign d a) g => (∃ c, Alive s d c) ∧ (∃ c, Alive s a c) ∧ IdFree s g
  | .op (.destroy a) _ => ∃ c, alGet a s.objs = some c ∧ c.moved ≠ none
  | .op (.onMessage a _) _ | .op (.onClose a _) _ | .op (.getId a) _ => ∃ c, alGet a s.objs = some c
  | .op (.registerTarget _ _) _ | .op (.target _) _ | .op .comms _ => True
  | .op (.unregisterTarget n) _ => ∀ t, alGet n s.names = some t → ∀ a c, Alive s a c → c.target ≠ t
  | .opened content => ∃ name t id, content.find? (lit "target_name") = some (.str name) ∧
      content.find? (lit "comm_id") = some (.str id) ∧ id.length ≤ 55 ∧ alGet name s.names = some t ∧ Usable s t ∧
      IdFree s id
  | .closed _ => True

/-! ## Sequences of acts -/

/-- The act leads from `s` to `s'`. -/
def Does (act : CommAct) (s s' : Comms) : Prop :=
  match act with
  | .op o g => ∃ v, o.apply g s = .ok (v, s')
  | .opened content => ∃ a cb, s.openLookup content = .ok (a, cb, s')
  | .closed id => s' = { s with reg := alDel id s.reg }

/-- The acts lead from `s` to `s'`. -/
inductive Trace (s : Comms) : List CommAct → Comms → Prop
  | nil : Trace s [] s
  | snoc {as s₁ act s₂} : Trace s as s₁ → Does act s₁ s₂ → Trace s (as ++ [act]) s₂

/-- Every act obeys the discipline when it is done. -/
def Disciplined (s : Comms) (as : List CommAct) : Prop :=
  ∀ p act r s₁, as = p ++ act :: r → Trace s p s₁ → Allowed s₁ act

/-- The act assigns to the comm at address `a`. -/
def AssignsTo (a : Nat) : CommAct → Prop
  | .op (.moveAssign d _) _ | .op (.copyAssign d _) _ => d = a
  | _ => False

/-- Among the acts was the closing of the comm at address `a`, and it was not assigned to since. -/
def WasClosed (s : Comms) (as : List CommAct) (a : Nat) : Prop :=
  ∃ p id r s₁, as = p ++ .closed id :: r ∧ Trace s p s₁ ∧ alGet id s₁.reg = some a ∧ ∀ act ∈ r, ¬ AssignsTo a act

end Xeus.Spec
