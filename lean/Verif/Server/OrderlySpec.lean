import Verif.Server.TranscriptSpec
import Verif.Server.DuoSpec

/-!
# Executions of the split servers in which messages do not overlap: specification
-/

namespace Xeus.Spec

open Xeus

/-- Executions in which at no time both threads are handling a message, and in which no message is received once a stop was requested. -/
inductive InTurn {σ : Type} (env : Env) (I : Interp σ) (st : Start σ) : Duo σ → Prop
  | start : InTurn env I st (Duo.init st)
  | step {s s' : Duo σ} {a : SWho} : InTurn env I st s → Duo.Step env I a s s' → Between s' .control ∨ Between s' .shell →
      (handledIn (served s'.log) = handledIn (served s.log) ∨ ¬ stopAsked s.w) → InTurn env I st s'

end Xeus.Spec
