import Verif.Sys.Model

/-!
# Temporary files: vocabulary of C69
-/

namespace Xeus.Sys.Spec

open Xeus Xeus.Sys

/-- The variables looked at, in this order. -/
def variables : List Str := [lit "TMPDIR", lit "TMP", lit "TEMPDIR", lit "TEMP"]

/-- The value of the first variable that is set. -/
def FirstSet (getenv : Str → Option Str) (v : Str) : Prop :=
  ∃ before name after, variables = before ++ name :: after ∧ (∀ x ∈ before, getenv x = none) ∧ getenv name = some v

/-- Everything that exists is in a directory; the root and the current directory exist. -/
structure Wf (fs : Fs) : Prop where
  top : ∀ b, fs.kind ⟨b, []⟩ = some .dir
  parent : ∀ b c x, fs.kind ⟨b, c ++ [x]⟩ ≠ none → fs.kind ⟨b, c⟩ = some .dir

/-- The path consists of these components, between, before and after which there are separators. -/
inductive PathOf : Str → Bool → List Str → Prop
  /-- one name -/
  | name (x : Str) : x ≠ [] → 47 ∉ x → PathOf x false [x]
  /-- the root -/
  | root : PathOf [47] true []
  /-- a separator at the end -/
  | sep (p : Str) (b : Bool) (c : List Str) : PathOf p b c → PathOf (p ++ [47]) b c
  /-- a name after a separator -/
  | more (p : Str) (b : Bool) (c : List Str) (x : Str) : PathOf (p ++ [47]) b c → x ≠ [] → 47 ∉ x → PathOf (p ++ [47] ++ x) b (c ++ [x])

/-- What making the directory of these components comes to, `slash` telling whether its path ends with a separator. -/
structure Made (fs : Fs) (b : Bool) (c : List Str) (slash : Bool) (r : Bool × Fs) : Prop where
  /-- it is there -/
  dir : fs.kind ⟨b, c⟩ = some .dir → r = (true, fs)
  /-- a file of that name is taken for it -/
  file : fs.kind ⟨b, c⟩ = some .file → r = (!slash, fs)
  /-- it is missing, `base` being the part that exists: exactly the missing directories are made if the process may write
  to that part, otherwise nothing is done and it is reported -/
  missing : ∀ base x rest, c = base ++ x :: rest → fs.kind ⟨b, base⟩ ≠ none → fs.kind ⟨b, base ++ [x]⟩ = none →
    (fs.kind ⟨b, base⟩ = some .dir ∧ fs.writable ⟨b, base⟩ = true → r.1 = true ∧
      (∀ t, t <+: rest → r.2.kind ⟨b, base ++ x :: t⟩ = some .dir ∧ r.2.writable ⟨b, base ++ x :: t⟩ = true) ∧
      ∀ l, (∀ t, t <+: rest → l ≠ ⟨b, base ++ x :: t⟩) → r.2.kind l = fs.kind l ∧ r.2.writable l = fs.writable l) ∧
    (¬ (fs.kind ⟨b, base⟩ = some .dir ∧ fs.writable ⟨b, base⟩ = true) → r = (false, fs))

end Xeus.Sys.Spec
