import Verif.Kernel.Spec
import Verif.Comm.Spec

/-!
# Comm traffic: specifications
-/

namespace Xeus.Spec

open Xeus

/-! ## Changes of the comms, told by what can be looked up -/

/-- A comm object `c` was put at the free address `a` and registered under its identifier; nothing else changed. -/
structure Created (s : Comms) (a : Nat) (c : Comm) (s' : Comms) : Prop where
  addr : a = s.next
  next : s'.next = s.next + 1
  objs : ∀ b, alGet b s'.objs = if b = a then some c else alGet b s.objs
  reg : ∀ id, alGet id s'.reg = if id = c.id then some a else alGet id s.reg
  names : s'.names = s.names
  nodes : s'.nodes = s.nodes

/-- The comm `c` was moved from address `a` to the free address `b`, and its registration with it; the moved-from
object is empty and marked. -/
structure MovedTo (s : Comms) (a b : Nat) (c : Comm) (s' : Comms) : Prop where
  addr : b = s.next
  next : s'.next = s.next + 1
  objs : ∀ x, alGet x s'.objs = if x = b then some ⟨c.target, c.id, some false, c.onMessage, c.onClose⟩
    else if x = a then some ⟨c.target, c.id, some true, none, none⟩ else alGet x s.objs
  reg : ∀ id, alGet id s'.reg = if id = c.id then some b else alGet id s.reg
  names : s'.names = s.names
  nodes : s'.nodes = s.nodes

/-- The comm `c` at address `a` was moved to the existing object `d` at address `b`: `b` now has identifier, target
and handlers of `c`; the identifier `d` had is registered no more. -/
structure MovedOnto (s : Comms) (a b : Nat) (c d : Comm) (s' : Comms) : Prop where
  next : s'.next = s.next
  objs : ∀ x, alGet x s'.objs = if x = b then some ⟨c.target, c.id, some false, c.onMessage, c.onClose⟩
    else if x = a then some ⟨c.target, c.id, some true, none, none⟩ else alGet x s.objs
  reg : ∀ id, alGet id s'.reg = if id = c.id then some b else if id = d.id then none else alGet id s.reg
  names : s'.names = s.names
  nodes : s'.nodes = s.nodes

/-- The comm at address `b` became a copy, with the new identifier `g`, of the comm `c`: target of `c`, its own
handlers `d` had; the identifier `d` had is registered no more, and that of `c` is unaffected. -/
structure CopiedOnto (s : Comms) (b : Nat) (c d : Comm) (g : Str) (s' : Comms) : Prop where
  next : s'.next = s.next
  objs : ∀ x, alGet x s'.objs = if x = b then some ⟨c.target, g, some false, d.onMessage, d.onClose⟩ else alGet x s.objs
  reg : ∀ id, alGet id s'.reg = if id = g then some b else if id = d.id then none else alGet id s.reg
  names : s'.names = s.names
  nodes : s'.nodes = s.nodes

/-- The comm at address `a` was destroyed: one that was moved from just disappears, another one is unregistered. -/
structure Destroyed (s : Comms) (a : Nat) (s' : Comms) : Prop where
  next : s'.next = s.next
  objs : ∀ x, alGet x s'.objs = if x = a then none else alGet x s.objs
  reg : ∃ c, alGet a s.objs = some c ∧ (c.moved = some true ∧ s'.reg = s.reg ∨
    c.moved = some false ∧ Usable s c.target ∧ ∀ id, alGet id s'.reg = if id = c.id then none else alGet id s.reg)
  names : s'.names = s.names
  nodes : s'.nodes = s.nodes

/-- Destroying the comm at address `a` is undefined: there is none (any more), or its flag was never initialised, or
it has to be unregistered but its target is gone or has no manager. -/
def Indestructible (s : Comms) (a : Nat) : Prop :=
  alGet a s.objs = none ∨
  ∃ c, alGet a s.objs = some c ∧ (c.moved = none ∨ c.moved = some false ∧ ¬ Usable s c.target)

/-- The identifier `id` was taken out of the registry; nothing else changed. -/
structure Erased (s : Comms) (id : Str) (s' : Comms) : Prop where
  next : s'.next = s.next
  objs : s'.objs = s.objs
  reg : ∀ i, alGet i s'.reg = if i = id then none else alGet i s.reg
  names : s'.names = s.names
  nodes : s'.nodes = s.nodes

/-! ## Courses of comm messages -/

/-- The end of a comm_open whose callback has returned (`evs` empty) or thrown in state `w₂`: the comm at address
`a`, local to the kernel, is destroyed. -/
def OpenEnd {σ : Type} (env : Env) (m : XMessage) (c : Chan) (w₂ : World σ) (a : Nat) (evs : List Ev)
    (x : Res Unit × World σ) : Prop :=
  (∃ s', Destroyed w₂.comm a s' ∧ Concludes env m c { w₂ with comm := s' } evs x) ∨
  (Indestructible w₂.comm a ∧ ∃ why, x = (.ub why, { w₂ with out := w₂.out ++ evs }))

/-- The course of a comm_open for the target `t` with callback `cb` and identifier `id`: a comm with this identifier
is made and registered, the callback is called once with its address and the message, and the local comm destroyed
at the end. -/
def OpenCourse {σ : Type} (env : Env) (I : Interp σ) (q : Multipart) (m : XMessage) (c : Chan) (w : World σ)
    (t cb : Nat) (id : Str) : Prop :=
  ∃ a s₁ w₁, Created w.comm a ⟨t, id, none, none, none⟩ s₁ ∧
    AtCall env m c { w with comm := s₁ } w.count [] (.target cb a m) w₁ ∧
    (∀ w₂, ((I.target cb a m).exec (Op.sem env)).run w₁ = (.ok (), w₂) →
      OpenEnd env m c w₂ a [] ((dispatch env I q c).run w)) ∧
    (∀ e w₂, ((I.target cb a m).exec (Op.sem env)).run w₁ = (.exc e, w₂) → e.isStd = true →
      OpenEnd env m c w₂ a [.threw e] ((dispatch env I q c).run w)) ∧
    (∀ e w₂, ((I.target cb a m).exec (Op.sem env)).run w₁ = (.exc e, w₂) → e.isStd = false →
      (∃ s' w₃, Destroyed w₂.comm a s' ∧ (dispatch env I q c).run w = (.exc e, w₃) ∧ w₃.comm = s' ∧
        w₃.out = w₂.out ++ [.threw e]) ∨
      (Indestructible w₂.comm a ∧
        ∃ why, (dispatch env I q c).run w = (.ub why, { w₂ with out := w₂.out ++ [.threw e] }))) ∧
    Diverges (Op.sem env) (I.target cb a m) w₁ ((dispatch env I q c).run w)

/-- The course of a message passed to the handler `h` of a comm: the handler is called once with the message (if there
is one); if it returns, the comms change as told by `After`. -/
def HandlerCourse {σ : Type} (env : Env) (I : Interp σ) (q : Multipart) (m : XMessage) (c : Chan) (w : World σ)
    (h : Option Nat) (After : Comms → Comms → Prop) : Prop :=
  match h with
  | none => ∃ s', After w.comm s' ∧ Handled env m c { w with comm := s' } [] ((dispatch env I q c).run w)
  | some n => ∃ w₁, AtCall env m c w w.count [] (.handler n m) w₁ ∧
    (∀ w₂, ((I.handler n m).exec (Op.sem env)).run w₁ = (.ok (), w₂) → ∃ s', After w₂.comm s' ∧
      Concludes env m c { w₂ with comm := s' } [] ((dispatch env I q c).run w)) ∧
    (∀ e w₂, ((I.handler n m).exec (Op.sem env)).run w₁ = (.exc e, w₂) → e.isStd = true →
      Concludes env m c w₂ [.threw e] ((dispatch env I q c).run w)) ∧
    (∀ e w₂, ((I.handler n m).exec (Op.sem env)).run w₁ = (.exc e, w₂) → e.isStd = false →
      (dispatch env I q c).run w = (.exc e, { w₂ with out := w₂.out ++ [.threw e] })) ∧
    Diverges (Op.sem env) (I.handler n m) w₁ ((dispatch env I q c).run w)

/-- The member `k` of the content is there but is not a text, or the content is no object at all. -/
def NotText (content : Json) (k : String) : Prop :=
  content.isObj = false ∨ ∃ v, content.find? (lit k) = some v ∧ ∀ s, v ≠ .str s

/-! ## Outgoing messages -/

/-- The content of an outgoing comm message. -/
def CommContent (k : CommMsg) (id name : Str) (data : Json) : Json :=
  match k with
  | .open_ => .obj [(lit "comm_id", .str id), (lit "data", data), (lit "target_name", .str name)]
  | .close | .msg => .obj [(lit "comm_id", .str id), (lit "data", data)]

/-- The type of an outgoing comm message. -/
def commType : CommMsg → String
  | .open_ => "comm_open"
  | .close => "comm_close"
  | .msg => "comm_msg"

/-- Only the events `es` happened. -/
structure Only {σ : Type} (w : World σ) (es : List Ev) (w' : World σ) : Prop where
  parent : w'.parent = w.parent
  st : w'.st = w.st
  count : w'.count = w.count
  input : w'.input = w.input
  hist : w'.hist = w.hist
  comm : w'.comm = w.comm
  shellQ : w'.shellQ = w.shellQ
  stdinQ : w'.stdinQ = w.stdinQ
  out : w'.out = w.out ++ es

end Xeus.Spec
