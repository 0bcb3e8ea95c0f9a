import Verif.Kernel.Spec

/-!
# Standard input: specifications
-/

namespace Xeus.Spec

open Xeus

/-- The text given in answer to a request for input (empty if absent); `none` when the content is not an object or the
value is not a text. -/
def inputValue (content : Json) : Option Str :=
  if content.isObj then strField content "value" "" else none

/-- The event is a request for input with this prompt, sent to the requester `p` of the current execution. -/
def IsInputRequest (env : Env) (p : Parent) (prompt : Str) (pwd : Bool) (e : Ev) : Prop :=
  ∃ m wire, e = .stdin m wire ∧ m.ids = p.ids ∧ m.body.parent = p.header ∧
    WfHeader env (lit "input_request") m.body.header ∧ m.body.metadata = .obj [] ∧
    m.body.content = .obj [(lit "prompt", .str prompt), (lit "pwd", .bool pwd)] ∧ m.body.buffers = []

/-- A request for input made in state `w` sent the events `evs` and left `rest` of the arriving stdin traffic and the
input handler `h`; apart from that nothing changed. -/
structure Asked {σ : Type} (w : World σ) (evs : List Ev) (rest : List Multipart) (h : Option Str)
    (w' : World σ) : Prop where
  out : w'.out = w.out ++ evs
  stdinQ : w'.stdinQ = rest
  input : w'.input = h
  parent : w'.parent = w.parent
  st : w'.st = w.st
  count : w'.count = w.count
  hist : w'.hist = w.hist
  comm : w'.comm = w.comm
  shellQ : w'.shellQ = w.shellQ

end Xeus.Spec
