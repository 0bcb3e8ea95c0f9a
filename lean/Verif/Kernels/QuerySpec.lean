import Verif.Kernel.Spec
import Verif.History.Spec

/-!
# Questions to a history manager (C93, C94, C113, C114)
-/

namespace Xeus.Spec

open Xeus

/-- A field needed for the access is not of the documented type. -/
def HistBad (c : Json) : Prop :=
  c.isObj = false ∨ strField c "hist_access_type" "tail" = none ∨
  (strField c "hist_access_type" "tail" = some (lit "tail") ∧
    (intField c "n" 10 = none ∨ boolField c "raw" true = none ∨ boolField c "output" false = none)) ∨
  (strField c "hist_access_type" "tail" = some (lit "search") ∧
    (strField c "pattern" "*" = none ∨ boolField c "raw" true = none ∨ boolField c "output" false = none ∨ intField c "n" 10 = none ∨
      boolField c "unique" false = none)) ∨
  (strField c "hist_access_type" "tail" = some (lit "range") ∧
    (intField c "session" 0 = none ∨ intField c "start" 1 = none ∨ intField c "stop" 10 = none ∨ boolField c "raw" true = none ∨
      boolField c "output" false = none))

/-- A question to a history manager: one of its three functions, with arguments. -/
inductive Query where
  | tail (n : Int) (raw output : Bool)
  | range (session start stop : Int) (raw output : Bool)
  | search (pattern : Str) (raw output : Bool) (n : Int) (unique : Bool)
  deriving DecidableEq

/-- The answer of the manager after the inputs `h` were stored. -/
def Query.ask (M : HistoryManager) (h : Hist) : Query → Res Json
  | .tail n raw output => M.tail h n raw output
  | .range session start stop raw output => M.range h session start stop raw output
  | .search pattern raw output n unique => M.search h pattern raw output n unique

/-- The content of a history request puts this question. -/
inductive Asks (c : Json) : Query → Prop
  | tail (n : Int) (raw output : Bool) : c.isObj = true → strField c "hist_access_type" "tail" = some (lit "tail") →
      intField c "n" 10 = some n → boolField c "raw" true = some raw → boolField c "output" false = some output → Asks c (.tail n raw output)
  | range (session start stop : Int) (raw output : Bool) : c.isObj = true → strField c "hist_access_type" "tail" = some (lit "range") →
      intField c "session" 0 = some session → intField c "start" 1 = some start → intField c "stop" 10 = some stop →
      boolField c "raw" true = some raw → boolField c "output" false = some output → Asks c (.range session start stop raw output)
  | search (pattern : Str) (raw output : Bool) (n : Int) (unique : Bool) : c.isObj = true →
      strField c "hist_access_type" "tail" = some (lit "search") → strField c "pattern" "*" = some pattern → boolField c "raw" true = some raw →
      boolField c "output" false = some output → intField c "n" 10 = some n → boolField c "unique" false = some unique →
      Asks c (.search pattern raw output n unique)

/-- It puts none: it asks for another access. -/
def AsksNothing (c : Json) : Prop :=
  c.isObj = true ∧ ∃ a, strField c "hist_access_type" "tail" = some a ∧ a ≠ lit "tail" ∧ a ≠ lit "search" ∧ a ≠ lit "range"

/-- The arguments are `int`s, and those that may not be negative for the in-memory manager are not. -/
def Query.Fits : Query → Prop
  | .tail n _ _ => InInt n ∧ 0 ≤ n
  | .range session start stop _ _ => InInt session ∧ InInt start ∧ InInt stop ∧ 0 ≤ start
  | .search _ _ _ n _ => InInt n ∧ 0 ≤ n

/-- A pattern, if there is one, is UTF-8 and contains neither backslashes nor NUL bytes. -/
def Query.Literal : Query → Prop
  | .search p _ _ _ _ => Utf8 p ∧ 92 ∉ p ∧ 0 ∉ p
  | _ => True

/-- All texts of the history are UTF-8. -/
def HistOk (h : Hist) : Prop := ∀ e ∈ h, Utf8 e.session ∧ Utf8 e.line ∧ Utf8 e.input ∧ Utf8 e.output

/-- A history manager that does no harm: as long as what it stored is UTF-8 and can be counted, no fitting question leads to undefined behaviour
or is never answered. -/
def Secure (M : HistoryManager) : Prop :=
  ∀ (h : Hist) (Q : Query), HistOk h → (h.length : Int) ≤ intMax → Q.Fits → (∀ s, Q.ask M h ≠ .ub s) ∧ Q.ask M h ≠ .hang

/-- Moreover it answers each fitting question with a literal pattern by a value that can be printed. -/
def Dependable (eh : ErrH) (M : HistoryManager) : Prop :=
  ∀ (h : Hist) (Q : Query), HistOk h → (h.length : Int) ≤ intMax → Q.Fits → Q.Literal → ∃ j, Q.ask M h = .ok j ∧ Printable eh j

/-- The history manager of the kernel does no harm. -/
class Steady (env : Env) : Prop where
  secure : Secure env.H

/-- And it can be relied on. -/
class Reliable (env : Env) : Prop extends Steady env where
  dependable : Dependable env.eh env.H

end Xeus.Spec
