import Verif.Debugger.Model

/-!
# The debugger: specifications

The vocabulary of the properties C59 to C64.  Of the model it uses the data types, the histories and (through `Calls`)
the programs of the kernel author only.
-/

namespace Xeus.Dbg.Spec

open Xeus

/-- The value found in a document by following member names. -/
inductive At : Json → List Str → Json → Prop
  | here {j} : At j [] j
  | member {j k ks v w} : j.find? k = some v → At v ks w → At j (k :: ks) w

/-- The program only calls operations satisfying `P`, whatever it is answered. -/
def Calls {σ α : Type} (P : Op → Prop) : Prog σ Op α → Prop
  | .get k => ∀ s, Calls P (k s)
  | .set _ k => Calls P k
  | .call o k => P o ∧ ∀ r, Calls P (k r)
  | _ => True

/-- The operations that send something to the adapter. -/
def Sends : Op → Bool
  | .forward _ | .setBreakpoints _ | .stackTrace _ | .variables _ => true
  | _ => false

/-- The operations that change the breakpoints or the set of stopped threads. -/
def Records : Op → Bool
  | .setBreakpoints _ | .continuedEvent _ | .stoppedEvent _ => true
  | _ => false

/-- The commands and events handled by the class itself. -/
def builtinCommands : List Str :=
  [lit "debugInfo", lit "dumpCell", lit "setBreakpoints", lit "source", lit "stackTrace", lit "variables"]

def builtinEvents : List Str := [lit "continued", lit "stopped"]

/-- The kernel author only adds handlers: they do not replace those of the class and leave its records alone. -/
structure Extends {σ : Type} (d : Debugger σ) : Prop where
  requests : ∀ name b h, (name, b, h) ∈ d.requests →
    name ∉ builtinCommands ∧ ∃ f, h = .user f ∧ ∀ m, Calls (fun o => Records o = false) (f m)
  events : ∀ name h, (name, h) ∈ d.events →
    name ∉ builtinEvents ∧ ∃ f, h = .user f ∧ ∀ m, Calls (fun o => Records o = false) (f m)

/-- Handlers of the kernel author that can run while the debugger is not started do not talk to the adapter. -/
structure Local {σ : Type} (d : Debugger σ) : Prop where
  requests : ∀ name h, (name, false, h) ∈ d.requests → ∃ f, h = .user f ∧ ∀ m, Calls (fun o => Sends o = false) (f m)
  events : ∀ name h, (name, h) ∈ d.events → ∃ f, h = .user f ∧ ∀ m, Calls (fun o => Sends o = false) (f m)

/-! ## C59 -/

/-- Something sent towards the adapter. -/
def traffic : Dbg.Event → Bool
  | .header _ | .request _ => true
  | _ => false

/-- Between a successful start and the next stop. -/
def Running (l : List Dbg.Event) : Prop :=
  ∃ pre post, l = pre ++ .start true :: post ∧ ∀ e ∈ post, e ≠ .stop ∧ ∀ b, e ≠ .start b

/-! ## Records -/

/-- A disconnect request that was answered. -/
def Clears (st : Step) : Prop :=
  ∃ header m r, st.call = .request header m ∧ At m [lit "command"] (.str (lit "disconnect")) ∧ st.result = .ok r

/-- The elements of the member `breakpoints` of a request: those of an array, in practice. -/
inductive Listed : Json → List Json → Prop
  | arr {xs} : Listed (.arr xs) xs
  | obj {kvs : List (Str × Json)} : Listed (.obj kvs) (kvs.map Prod.snd)
  | null : Listed .null []
  | bool {b} : Listed (.bool b) [.bool b]
  | int {i} : Listed (.int i) [.int i]
  | float {b} : Listed (.float b) [.float b]
  | str {s} : Listed (.str s) [.str s]

/-- A setBreakpoints request for the source `src` reached the debugger while it was running. -/
def Sets (J : Codec) (st : Step) (src : Str) (l : List Json) : Prop :=
  st.before = true ∧ ∃ header m v, st.call = .request header m ∧ (J.dump .strict header).isSome ∧
    At m [lit "command"] (.str (lit "setBreakpoints")) ∧
    At m [lit "arguments", lit "source", lit "path"] (.str src) ∧
    At m [lit "arguments", lit "breakpoints"] v ∧ Listed v l

/-- The last setBreakpoints request for `src` since the last disconnection had the breakpoints `l`. -/
def LastSet (J : Codec) (steps : List Step) (src : Str) (l : List Json) : Prop :=
  ∃ pre st post, steps = pre ++ st :: post ∧ Sets J st src l ∧
    ∀ x ∈ post, ¬ Clears x ∧ ∀ l', ¬ Sets J x src l'

/-- The event `name` for the thread `t`. -/
def Tells (name : Str) (st : Step) (t : Int) : Prop :=
  ∃ m v, st.call = .event m ∧ At m [lit "event"] (.str name) ∧ At m [lit "body", lit "threadId"] v ∧ v.getInt = .ok t

/-- The last event about the thread since the last disconnection was `stopped`. -/
def LastStopped (steps : List Step) (t : Int) : Prop :=
  ∃ pre st post, steps = pre ++ st :: post ∧ Tells (lit "stopped") st t ∧
    ∀ x ∈ post, ¬ Clears x ∧ ¬ Tells (lit "continued") x t

/-- A debugInfo request. -/
structure DebugInfo (m seq : Json) : Prop where
  command : At m [lit "command"] (.str (lit "debugInfo"))
  seq : At m [lit "seq"] seq

/-- The answer to a debugInfo request reports these breakpoints (in this order). -/
def ReportsBreakpoints (answer : Json) (l : List (Str × List Json)) : Prop :=
  ∃ js, At answer [lit "body", lit "breakpoints"] (.arr js) ∧ js.length = l.length ∧
    ∀ (i : Nat) (j : Json) (x : Str × List Json), js[i]? = some j → l[i]? = some x →
      At j [lit "source"] (.str x.1) ∧ At j [lit "breakpoints"] (.arr x.2) ∧
        ∀ k, k ≠ lit "source" → k ≠ lit "breakpoints" → j.find? k = none

/-- The answer to a debugInfo request reports these stopped threads. -/
def ReportsThreads (answer : Json) (l : List Int) : Prop :=
  At answer [lit "body", lit "stoppedThreads"] (.arr (l.map .int))

/-! ## C63 -/

/-- A dumpCell request for a cell. -/
structure DumpCell (m seq : Json) (code : Str) : Prop where
  command : At m [lit "command"] (.str (lit "dumpCell"))
  code : At m [lit "arguments", lit "code"] (.str code)
  seq : At m [lit "seq"] seq

/-- A source request for a path. -/
structure Source (m seq : Json) (path : Str) : Prop where
  command : At m [lit "command"] (.str (lit "source"))
  path : At m [lit "arguments", lit "source", lit "path"] (.str path)
  seq : At m [lit "seq"] seq

/-- A successful answer with one member in its body. -/
structure Answers (answer seq : Json) (command : Str) (k : Str) (v : Json) : Prop where
  body : At answer [lit "body", k] v
  command : At answer [lit "command"] (.str command)
  seq : At answer [lit "request_seq"] seq
  success : At answer [lit "success"] (.bool true)
  type : At answer [lit "type"] (.str (lit "response"))

/-! ## C64 -/

/-- `b` is `a` with the value of the member `k₂` of the member `k₁` replaced. -/
def Replaced (a b : Json) (k₁ k₂ : Str) (w : Json) : Prop :=
  At b [k₁, k₂] w ∧ (∀ k, k ≠ k₁ → b.find? k = a.find? k) ∧
    ∃ x y, a.find? k₁ = some x ∧ b.find? k₁ = some y ∧ ∀ k, k ≠ k₂ → y.find? k = x.find? k

/-- An optional integer argument with the default 0. -/
def Arg (args : Json) (k : Str) (n : Int) : Prop :=
  args.find? k = some (.int n) ∨ (args.find? k = none ∧ n = 0)

end Xeus.Dbg.Spec
