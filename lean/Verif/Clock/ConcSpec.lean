import Verif.Clock.Conc
import Verif.Clock.Spec

/-!
# Dates made by several threads: specifications
-/

namespace Xeus.Clock.Spec

open Xeus Xeus.Clock

/-- After `log` thread `i` is in a call for the instant `now`. -/
def Running (log : List Call) (i now : Nat) : Prop :=
  ∃ a b, log = a ++ .began i now :: b ∧ ∀ x ∈ b, x.thread ≠ i

/-- `now` is the instant of a call that was running after `before` or that began in `during`. -/
def Overlaps (before during : List Call) (now : Nat) : Prop :=
  (∃ j, Running before j now) ∨ ∃ j, .began j now ∈ during

/-- According to the log, thread `i` called for the instant `now` after `before` and got `text`; `during` is what other threads did
meanwhile. -/
def Made (log before during : List Call) (i now : Nat) (text : Str) : Prop :=
  ∃ after, log = before ++ .began i now :: (during ++ .ended i text :: after) ∧ ∀ x ∈ during, x.thread ≠ i

end Xeus.Clock.Spec
