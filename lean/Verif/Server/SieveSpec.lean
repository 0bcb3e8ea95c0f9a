import Verif.Server.Spec

/-!
# Refused messages: specification
-/

namespace Xeus.Spec

open Xeus

open Classical in
/-- Without the messages that are refused. -/
noncomputable def unrefused {α : Type} (env : Env) (wire : α → Multipart) (l : List α) : List α :=
  l.filter fun x => ¬ Refused env.C env.J env.auth (wire x)

end Xeus.Spec
