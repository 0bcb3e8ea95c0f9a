import Verif.Debugger.Conc
import Verif.Debugger.Spec

/-!
# The debugger used by two threads: specifications
-/

namespace Xeus.Dbg.Spec

open Xeus

/-- The event says so about the thread. -/
def About (name : String) (m : Json) (t : Int) : Prop :=
  ∃ v, At m [lit "event"] (.str (lit name)) ∧ At m [lit "body", lit "threadId"] v ∧ v.getInt = .ok t

/-- The request is a disconnect request. -/
def Disconnects (m : Json) : Prop := At m [lit "command"] (.str (lit "disconnect"))

/-- No request begins or ends. -/
def NoRequest (l : List Mark) : Prop := ∀ e ∈ l, (∀ h m, e ≠ .call h m) ∧ ∀ r, e ≠ .ret r

/-- No event begins or ends. -/
def NoEvent (l : List Mark) : Prop := ∀ e ∈ l, (∀ m, e ≠ .begins m) ∧ ∀ r, e ≠ .ends r

/-- No event of this name about the thread begins. -/
def Without (name : String) (t : Int) (l : List Mark) : Prop := ∀ m, .begins m ∈ l → ¬ About name m t

/-- No disconnect request begins. -/
def Connected (l : List Mark) : Prop := ∀ h m, .call h m ∈ l → ¬ Disconnects m

/-- No disconnect request is in hand at the end. -/
def NotDisconnecting (l : List Mark) : Prop :=
  ∀ a b h m, l = a ++ .call h m :: b → Disconnects m → ∃ r, .ret r ∈ b

/-- No event of this name about the thread is in hand at the end. -/
def NotInHand (name : String) (t : Int) (l : List Mark) : Prop :=
  ∀ a b m, l = a ++ .begins m :: b → About name m t → ∃ r, .ends r ∈ b

end Xeus.Dbg.Spec
