import Verif.Kernels.Debugging
import Verif.Kernel.Spec
import Verif.Debugger.Spec

/-!
# A kernel whose debugger is `xdebugger_base`: specifications

The vocabulary of property C111.
-/

namespace Xeus.Spec

open Xeus

variable {τ ρ : Type}

/-- The calls of the debugger due to what was received: one for every message that is an accepted debug request, with the header
and the content of that message, and one for every event; in order, and no others. -/
inductive DebugCalls (env : Env) : List Received → List Dbg.Call → Prop
  | nil : DebugCalls env [] []
  | request {l cs} (c : Chan) {q : Multipart} {m : XMessage} : DebugCalls env l cs → Accepted env.C env.J env.auth q m → IsReq m .debug →
      DebugCalls env (l ++ [.message c q]) (cs ++ [.request m.body.header m.body.content])
  | other {l cs} (c : Chan) {q : Multipart} : DebugCalls env l cs → (∀ m, Accepted env.C env.J env.auth q m → ¬ IsReq m .debug) →
      DebugCalls env (l ++ [.message c q]) cs
  | event {l cs} (m : Json) : DebugCalls env l cs → DebugCalls env (l ++ [.event m]) (cs ++ [.event m])

/-- The message was handled with this result: `busy`, the call of the debugger, `evs`, `idle`; the debugger is left in the state
`s`, and nothing else has changed but the parent of the channel and the numbers of identifiers and dates made. -/
structure DebugServed (env : Env) (m : XMessage) (c : Chan) (w : World (τ × Dbg.State ρ)) (evs : List Ev) (s : Dbg.State ρ)
    (x : Res Unit × World (τ × Dbg.State ρ)) : Prop where
  ok : x.1 = .ok ()
  st : x.2.st = (w.st.1, s)
  count : x.2.count = w.count
  hist : x.2.hist = w.hist
  comm : x.2.comm = w.comm
  shellQ : x.2.shellQ = w.shellQ
  stdinQ : x.2.stdinQ = w.stdinQ
  other : ∀ c', c' ≠ c → x.2.parent c' = w.parent c'
  out : ∃ b i, IsStatus env c "busy" m.body.header b ∧ IsStatus env c "idle" m.body.header i ∧
    x.2.out = w.out ++ ([b, .call (.debug m.body.header m.body.content)] ++ evs ++ [i])

/-- The message was handled and answered with a `debug_reply` having this content. -/
def DebugReplied (env : Env) (m : XMessage) (c : Chan) (w : World (τ × Dbg.State ρ)) (answer : Json) (s : Dbg.State ρ)
    (x : Res Unit × World (τ × Dbg.State ρ)) : Prop :=
  ∃ md rep, Started md ∧ IsReplyWith env c m.ids m.body.header (lit "debug_reply") md answer rep ∧ DebugServed env m c w [rep] s x

/-- What the kernel author says about their debugger can be sent: texts are UTF-8, and the seed fits `std::size_t`. -/
structure InfoOk (i : Dbg.Info) : Prop where
  seed : i.hashSeed < 18446744073709551616
  pre : Utf8 i.prefix_
  suf : Utf8 i.suffix
  paths : ∀ p ∈ i.exceptionPaths, Utf8 p

/-- The answer to debugInfo tells what the calls of the debugger amount to: whether it runs, the breakpoints of every source, and the
stopped threads. -/
def InfoTells (J : Codec) (steps : List Dbg.Step) (out : List Dbg.Event) (answer : Json) : Prop :=
  (∃ b, Dbg.Spec.At answer [lit "body", lit "isStarted"] (.bool b) ∧ (b = true ↔ Dbg.Spec.Running out)) ∧
  (∃ l, Dbg.Spec.ReportsBreakpoints answer l ∧ l.Pairwise (fun a b => strLt a.1 b.1 = true) ∧
    ∀ src bs, (src, bs) ∈ l ↔ Dbg.Spec.LastSet J steps src bs) ∧
  ∃ l, Dbg.Spec.ReportsThreads answer l ∧ l.Pairwise (· < ·) ∧ ∀ t, t ∈ l ↔ Dbg.Spec.LastStopped steps t

/-- The messages a server has handled, as received by the kernel. -/
def asReceived (l : List (Chan × Multipart)) : List Received := l.map fun x => .message x.1 x.2

end Xeus.Spec
