import Verif.Sys.Windows
import Verif.Sys.Spec

/-!
# Temporary files on Windows: vocabulary of C109
-/

namespace Xeus.Sys.Spec

open Xeus Xeus.Sys

/-- What making the directory of these components comes to on Windows, `slash` telling whether its path ends with a separator. -/
structure MadeWin (fs : Fs) (b : Bool) (c : List Str) (slash : Bool) (r : Bool × Fs) : Prop where
  /-- something is there already: that is reported as a failure -/
  there : fs.kind ⟨b, c⟩ ≠ none → r = (false, fs)
  /-- it is missing, `base` being the part that exists: exactly the missing directories are made if the process may write
  to that part, which is reported as a failure all the same if the path ends with a separator; otherwise nothing is done and it is reported -/
  missing : ∀ base x rest, c = base ++ x :: rest → fs.kind ⟨b, base⟩ ≠ none → fs.kind ⟨b, base ++ [x]⟩ = none →
    (fs.kind ⟨b, base⟩ = some .dir ∧ fs.writable ⟨b, base⟩ = true → r.1 = !slash ∧
      (∀ t, t <+: rest → r.2.kind ⟨b, base ++ x :: t⟩ = some .dir ∧ r.2.writable ⟨b, base ++ x :: t⟩ = true) ∧
      ∀ l, (∀ t, t <+: rest → l ≠ ⟨b, base ++ x :: t⟩) → r.2.kind l = fs.kind l ∧ r.2.writable l = fs.writable l) ∧
    (¬ (fs.kind ⟨b, base⟩ = some .dir ∧ fs.writable ⟨b, base⟩ = true) → r = (false, fs))

/-- The same text with slashes for backslashes. -/
inductive Slashed : Str → Str → Prop
  | nil : Slashed [] []
  | back (s t : Str) : Slashed s t → Slashed (92 :: s) (47 :: t)
  | same (c : UInt8) (s t : Str) : c ≠ 92 → Slashed s t → Slashed (c :: s) (c :: t)

end Xeus.Sys.Spec
