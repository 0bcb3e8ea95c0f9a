import Verif.Debugger.ConcSpec
import Verif.Debugger.Sample
import Verif.Link.Sample

/-!
# The debugger used by two threads: concrete runs, for the examples
-/

namespace Xeus.Dbg.Sample

open Xeus K Spec

/-- A scheduler's decision. -/
inductive Turn where
  | call (header m : Json)
  | ctl
  | ret
  | begins (m : Json)
  | ev
  | ends

section
variable {σ : Type} (d : Debugger σ)

/-- What it leads to. -/
def turn (p : Pair σ) : Turn → Option (Pair σ)
  | .call header m =>
    match p.ctl with
    | none => some { p with ctl := some (processRequest d header m), log := p.log ++ [.call header m] }
    | some _ => none
  | .ctl =>
    match p.ctl with
    | some q =>
      match Link.Sample.stepK q p.s with
      | some (q', t) => some { p with s := t, ctl := some q' }
      | none => none
    | none => none
  | .ret =>
    match p.ctl with
    | some (.done (.ok j)) => some { p with ctl := none, log := p.log ++ [.ret (.ok j)] }
    | some (.done (.exc e)) => some { p with ctl := none, log := p.log ++ [.ret (.error e)] }
    | _ => none
  | .begins m =>
    match p.ev with
    | none => some { p with ev := some (handleEvent d m), log := p.log ++ [.begins m] }
    | some _ => none
  | .ev =>
    match p.ev with
    | some q =>
      match Link.Sample.stepK q p.s with
      | some (q', t) => some { p with s := t, ev := some q' }
      | none => none
    | none => none
  | .ends =>
    match p.ev with
    | some (.done (.ok ())) => some { p with ev := none, log := p.log ++ [.ends (.ok ())] }
    | some (.done (.exc e)) => some { p with ev := none, log := p.log ++ [.ends (.error e)] }
    | _ => none

theorem turn_sound {p q : Pair σ} {c : Turn} (h : turn d p c = some q) : Move d p q := by
  cases c with
  | call header m =>
    simp only [turn] at h
    split at h
    · next hc => cases h; exact .call header m hc
    · cases h
  | ctl =>
    simp only [turn] at h
    split at h
    · next k hc =>
      split at h
      · next k' t hs =>
        cases h
        obtain ⟨h1, h2⟩ := Link.Sample.stepK_sound hs
        exact .ctl hc h1 h2
      · cases h
    · cases h
  | ret =>
    simp only [turn] at h
    split at h
    · next hc => cases h; exact .ret hc
    · next hc => cases h; exact .threw hc
    · cases h
  | begins m =>
    simp only [turn] at h
    split at h
    · next hc => cases h; exact .begins m hc
    · cases h
  | ev =>
    simp only [turn] at h
    split at h
    · next k hc =>
      split at h
      · next k' t hs =>
        cases h
        obtain ⟨h1, h2⟩ := Link.Sample.stepK_sound hs
        exact .ev hc h1 h2
      · cases h
    · cases h
  | ends =>
    simp only [turn] at h
    split at h
    · next hc => cases h; exact .ends hc
    · next hc => cases h; exact .fails hc
    · cases h

/-- A run. -/
def turns (p : Pair σ) : List Turn → Option (Pair σ)
  | [] => some p
  | c :: cs =>
    match turn d p c with
    | some q => turns q cs
    | none => none

theorem turns_sound {p q : Pair σ} {l : List Turn} (h : turns d p l = some q) : Moves d p q := by
  induction l generalizing p with
  | nil => cases h; exact .refl _
  | cons c cs ih =>
    simp only [turns] at h
    split at h
    · next r hr =>
      have hm := turn_sound d hr
      have := ih h
      clear ih h hr
      induction this with
      | refl => exact .tail (.refl _) hm
      | tail _ hm' ih => exact .tail ih hm'
    · cases h

/-- The run, given that it exists. -/
theorem runs {l : List Turn} {p : Pair σ} (h : (turns d p l).isSome = true) :
    Moves d p ((turns d p l).get h) := turns_sound d (Option.some_get h).symm

end

/-- The debugger, constructed. -/
def fresh : Pair Nat := Pair.initial 0 fun _ => none

/-- debugInfo, from beginning to end. -/
def askInfo : List Turn := [.call header (request "debugInfo" .null), .ctl, .ctl, .ctl, .ret]

def stoppedEv (t : Int) : List Turn := [.begins (event "stopped" t), .ev, .ends]

/-- debugInfo's answer with these threads, when the debugger is not started. -/
def infoReply (l : List Int) : Json :=
  response (.int 12) (.str (lit "debugInfo")) (infoBody ⟨7, lit "/tmp/", lit ".py", true, [lit "a"]⟩ false [] l)

end Xeus.Dbg.Sample
