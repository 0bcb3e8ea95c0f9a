import Verif.Debugger.Spec
import Verif.JsonCodec

/-!
# The debugger: a concrete one, for the examples
-/

namespace Xeus.Dbg.Sample

open Xeus Spec

/-- A debugger whose state counts how often it was started; cells are stored under a name made of their first byte, and
starting it a third time fails.  It adds a request and an event of its own. -/
def debugger : Debugger Nat where
  J := stdCodec
  start n := (.ok (n < 2), n + 1)
  stop n := (.ok (), n)
  info _ := .ok ⟨7, lit "/tmp/", lit ".py", true, [lit "a"]⟩
  cellFile code _ := .ok (lit "/tmp/" ++ code.take 1 ++ lit ".py")
  readable p := p ≠ lit "/tmp/x.py"
  writable p := p ≠ lit "/tmp/y.py"
  requests := [(lit "ping", false, .user fun m => .call .isStarted fun _ => .ret m)]
  events := [(lit "output", .user fun _ => .ret ())]

/-- A debugger whose `stop` throws. -/
def stubborn : Debugger Nat := { debugger with stop := fun n => (.exc (.runtime "busy"), n) }

def noFiles : Str → Option Str := fun _ => none

/-- A request with a command and arguments. -/
def request (command : String) (args : Json) : Json :=
  .obj [(lit "arguments", args), (lit "command", .str (lit command)), (lit "seq", .int 12)]

def event (name : String) (thread : Int) : Json :=
  .obj [(lit "body", .obj [(lit "threadId", .int thread)]), (lit "event", .str (lit name))]

def header : Json := .obj [(lit "msg_id", .str (lit "m"))]

/-- Breakpoints at lines. -/
def lines (l : List Int) : Json := .arr (l.map fun i => .obj [(lit "line", .int i)])

def setBps (src : String) (l : List Int) : Json :=
  request "setBreakpoints" (.obj [(lit "breakpoints", lines l), (lit "source", .obj [(lit "path", .str (lit src))])])

/-- What the adapter answers. -/
def answer (j : Json) : Str := printJson j

def okAnswer : Str := printJson (.obj [(lit "success", .bool true)])

theorem debugger_extends : Extends debugger where
  requests name b h hm := by
    simp only [debugger, List.mem_singleton, Prod.mk.injEq] at hm
    obtain ⟨rfl, rfl, rfl⟩ := hm
    exact ⟨by decide +kernel, _, rfl, fun m => ⟨rfl, fun _ => trivial⟩⟩
  events name h hm := by
    simp only [debugger, List.mem_singleton, Prod.mk.injEq] at hm
    obtain ⟨rfl, rfl⟩ := hm
    exact ⟨by decide +kernel, _, rfl, fun m => trivial⟩

theorem debugger_local : Local debugger where
  requests name h hm := by
    simp only [debugger, List.mem_singleton, Prod.mk.injEq] at hm
    obtain ⟨rfl, _, rfl⟩ := hm
    exact ⟨_, rfl, fun m => ⟨rfl, fun _ => trivial⟩⟩
  events name h hm := by
    simp only [debugger, List.mem_singleton, Prod.mk.injEq] at hm
    obtain ⟨rfl, rfl⟩ := hm
    exact ⟨_, rfl, fun m => trivial⟩

/-- Executing calls one after the other: the steps and the final state, if every call ends. -/
def calls {σ : Type} (d : Debugger σ) (s : State σ) : List Call → Option (List Step × State σ)
  | [] => some ([], s)
  | c :: cs =>
    match (runCall d c).attempt.run s with
    | (.ok r, s') => (calls d s' cs).map fun x => (⟨c, s.started, r⟩ :: x.1, x.2)
    | _ => none

theorem hist_calls {σ : Type} {d : Debugger σ} {s₀ s s' : State σ} {l l' : List Step} {cs : List Call}
    (h : Hist d s₀ l s) (hc : calls d s cs = some (l', s')) : Hist d s₀ (l ++ l') s' := by
  induction cs generalizing l l' s with
  | nil =>
    simp only [calls, Option.some.injEq, Prod.mk.injEq] at hc
    obtain ⟨rfl, rfl⟩ := hc
    simpa using h
  | cons c cs ih =>
    rw [calls] at hc
    split at hc
    · rename_i r s₁ hr
      obtain ⟨⟨l₁, s₂⟩, h₁, h₂⟩ := Option.map_eq_some_iff.1 hc
      simp only [Prod.mk.injEq] at h₂
      obtain ⟨rfl, rfl⟩ := h₂
      have := ih (.snoc h hr) h₁
      simpa using this
    · cases hc

/-- What can be compared of a state. -/
def view (s : State Nat) : Nat × Bool × List (Str × Json) × List Int × List Str × List Str × List Event :=
  (s.st, s.started, s.breakpoints, s.threads, s.replies, s.acks, s.out)

end Xeus.Dbg.Sample
