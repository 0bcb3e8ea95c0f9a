import Verif.Wire.Model

/-!
# Comms: the model of object lifetimes and of the registry

Models include/xeus/xcomm.hpp and the registry part of src/xcomm.cpp.  Comm objects and target nodes live at
addresses; an address is never reused, and access through the address of a dead object is undefined
behaviour.  Callables (`std::function`) are named by numbers, `none` is an empty one.

Not modelled: destruction of a handler while it is running, and `xtarget::publish_message` called directly
by user code.
-/

namespace Xeus

/-! ## Finite maps -/

/-- Finite maps as association lists: `std::map::find`. -/
def alGet {κ ν : Type} [DecidableEq κ] (k : κ) : List (κ × ν) → Option ν
  | [] => none
  | (k', v) :: r => if k' = k then some v else alGet k r

/-- `m[k] = v`. -/
def alSet {κ ν : Type} [DecidableEq κ] (k : κ) (v : ν) : List (κ × ν) → List (κ × ν)
  | [] => [(k, v)]
  | (k', v') :: r => if k' = k then (k, v) :: r else (k', v') :: alSet k v r

/-- `m.erase(k)`. -/
def alDel {κ ν : Type} [DecidableEq κ] (k : κ) (l : List (κ × ν)) : List (κ × ν) :=
  l.filter fun e => e.1 ≠ k

/-! ## State -/

/-- `xtarget` (include/xeus/xcomm.hpp:39-64, 188-202): name, callback, and whether `p_manager` is set (only
the default constructor leaves it null). -/
structure Target where
  name : Str
  callback : Option Nat
  managed : Bool
  deriving DecidableEq, Repr

/-- `xcomm` (include/xeus/xcomm.hpp:75-136).  `target` is the address of the target node; `moved` is
`m_moved_from`, `none` when indeterminate. -/
structure Comm where
  target : Nat
  id : Str
  moved : Option Bool
  onMessage : Option Nat
  onClose : Option Nat
  deriving DecidableEq, Repr

/-- A comm manager (include/xeus/xcomm.hpp:148-182) together with the comm objects in existence. -/
structure Comms where
  /-- live comm objects by address -/
  objs : List (Nat × Comm)
  /-- `m_comms` -/
  reg : List (Str × Nat)
  /-- `m_targets`: name to address of the node -/
  names : List (Str × Nat)
  /-- live target nodes by address -/
  nodes : List (Nat × Target)
  /-- next fresh address -/
  next : Nat
  deriving DecidableEq, Repr

def Comms.empty : Comms := ⟨[], [], [], [], 0⟩

/-- Dereference a comm pointer. -/
def Comms.obj (s : Comms) (a : Nat) : Res Comm :=
  match alGet a s.objs with
  | some c => .ok c
  | none => .ub "access to a dead comm"

/-- Dereference a target pointer. -/
def Comms.node (s : Comms) (t : Nat) : Res Target :=
  match alGet t s.nodes with
  | some n => .ok n
  | none => .ub "access to a dead comm target"

/-- Write the object at an address. -/
def Comms.setObj (s : Comms) (a : Nat) (c : Comm) : Comms := { s with objs := alSet a c s.objs }

/-- A new object at a fresh address. -/
def Comms.newObj (s : Comms) (c : Comm) : Comms :=
  { s with objs := alSet s.next c s.objs, next := s.next + 1 }

/-! ## Registration -/

/-- `xtarget::register_comm` → `xcomm_manager::register_comm`
(include/xeus/xcomm.hpp:224-227, src/xcomm.cpp:54-57). -/
def Comms.registerComm (s : Comms) (t : Nat) (id : Str) (a : Nat) : Res Comms := do
  let n ← s.node t
  if n.managed then return { s with reg := alSet id a s.reg } else .ub "null comm manager"

/-- `xtarget::unregister_comm` → `xcomm_manager::unregister_comm`
(include/xeus/xcomm.hpp:229-232, src/xcomm.cpp:59-62). -/
def Comms.unregisterComm (s : Comms) (t : Nat) (id : Str) : Res Comms := do
  let n ← s.node t
  if n.managed then return { s with reg := alDel id s.reg } else .ub "null comm manager"

/-! ## Special member functions of `xcomm` -/

/-- `xcomm(xtarget*, xguid)` and, with a new identifier, `xcomm(xtarget*)`
(include/xeus/xcomm.hpp:333-345): `m_moved_from` is left uninitialised. -/
def Comms.construct (s : Comms) (t : Nat) (id : Str) : Res (Nat × Comms) := do
  let s' ← (s.newObj ⟨t, id, none, none, none⟩).registerComm t id s.next
  return (s.next, s')

/-- `xcomm(xcomm&&)` (include/xeus/xcomm.hpp:289-299); moved-from handlers are taken to be empty. -/
def Comms.moveConstruct (s : Comms) (src : Nat) : Res (Nat × Comms) := do
  let c ← s.obj src
  let s₁ := s.newObj ⟨c.target, c.id, some false, c.onMessage, c.onClose⟩
  let s₂ := s₁.setObj src { c with moved := some true, onMessage := none, onClose := none }
  let s₃ ← s₂.registerComm c.target c.id s.next
  return (s.next, s₃)

/-- `xcomm(const xcomm&)` (include/xeus/xcomm.hpp:301-307) with the new identifier `id`. -/
def Comms.copyConstruct (s : Comms) (src : Nat) (id : Str) : Res (Nat × Comms) := do
  let c ← s.obj src
  let s' ← (s.newObj ⟨c.target, id, some false, none, none⟩).registerComm c.target id s.next
  return (s.next, s')

/-- `operator=(xcomm&&)` (include/xeus/xcomm.hpp:309-321), statement by statement.  Self-move of the handlers
leaves them alone, as in libstdc++ and libc++. -/
def Comms.moveAssign (s : Comms) (dst src : Nat) : Res Comms := do
  let d ← s.obj dst
  let c ← s.obj src
  -- handlers and p_target
  let s₁ := s.setObj src { c with onMessage := none, onClose := none }
  let d₁ := { d with onMessage := c.onMessage, onClose := c.onClose, target := c.target }
  let s₂ := s₁.setObj dst d₁
  -- p_target->unregister_comm(m_id)
  let s₃ ← s₂.unregisterComm c.target d.id
  -- m_id = comm.m_id; m_moved_from = false
  let s₄ := s₃.setObj dst { d₁ with id := c.id, moved := some false }
  -- comm.m_moved_from = true
  let c' ← s₄.obj src
  let s₅ := s₄.setObj src { c' with moved := some true }
  s₅.registerComm c.target c.id dst

/-- `operator=(const xcomm&)` (include/xeus/xcomm.hpp:323-331) with the new identifier `id`; the handlers
are left alone. -/
def Comms.copyAssign (s : Comms) (dst src : Nat) (id : Str) : Res Comms := do
  let d ← s.obj dst
  let c ← s.obj src
  let s₁ ← (s.setObj dst { d with target := c.target }).unregisterComm c.target d.id
  let s₂ := s₁.setObj dst { d with target := c.target, id := id, moved := some false }
  s₂.registerComm c.target id dst

/-- `~xcomm` (include/xeus/xcomm.hpp:347-353). -/
def Comms.destroy (s : Comms) (a : Nat) : Res Comms := do
  let c ← s.obj a
  match c.moved with
  | none => .ub "uninitialised m_moved_from read by ~xcomm"
  | some true => return { s with objs := alDel a s.objs }
  | some false => do
    let s' ← s.unregisterComm c.target c.id
    return { s' with objs := alDel a s'.objs }

/-! ## Handlers and targets -/

/-- `on_message` (include/xeus/xcomm.hpp:379-383). -/
def Comms.setOnMessage (s : Comms) (a : Nat) (h : Option Nat) : Res Comms := do
  let c ← s.obj a
  return s.setObj a { c with onMessage := h }

/-- `on_close` (include/xeus/xcomm.hpp:385-389). -/
def Comms.setOnClose (s : Comms) (a : Nat) (h : Option Nat) : Res Comms := do
  let c ← s.obj a
  return s.setObj a { c with onClose := h }

/-- `xcomm_manager::register_comm_target` (src/xcomm.cpp:43-47): an existing node is assigned to, keeping
its address. -/
def Comms.registerTarget (s : Comms) (name : Str) (cb : Option Nat) : Comms :=
  match alGet name s.names with
  | some t => { s with nodes := alSet t ⟨name, cb, true⟩ s.nodes }
  | none => { s with
      names := alSet name s.next s.names
      nodes := alSet s.next ⟨name, cb, true⟩ s.nodes
      next := s.next + 1 }

/-- `xcomm_manager::unregister_comm_target` (src/xcomm.cpp:49-52): the node is destroyed. -/
def Comms.unregisterTarget (s : Comms) (name : Str) : Comms :=
  match alGet name s.names with
  | some t => { s with names := alDel name s.names, nodes := alDel t s.nodes }
  | none => s

/-- `xcomm_manager::target` (include/xeus/xcomm.hpp:395-398): `&m_targets[name]` inserts a default
constructed target when the name is unknown. -/
def Comms.targetPtr (s : Comms) (name : Str) : Nat × Comms :=
  match alGet name s.names with
  | some t => (t, s)
  | none => (s.next, { s with
      names := alSet name s.next s.names
      nodes := alSet s.next ⟨[], none, false⟩ s.nodes
      next := s.next + 1 })

/-! ## Outgoing messages -/

/-- Content built by the two `send_comm_message` (include/xeus/xcomm.hpp:264-287). -/
def commContent (id : Str) (data : Json) (targetName : Option Str) : Json :=
  let c := Json.put .null (lit "comm_id") (.str id)
  let c := match targetName with
    | some n => c.put (lit "target_name") (.str n)
    | none => c
  c.put (lit "data") data

/-- The three outgoing messages. -/
inductive CommMsg where
  | open_ | close | msg
  deriving DecidableEq, Repr

def CommMsg.type : CommMsg → Str
  | open_ => lit "comm_open"
  | close => lit "comm_close"
  | msg => lit "comm_msg"

/-- `open`, `close`, `send` (include/xeus/xcomm.hpp:355-372) up to the call of `xtarget::publish_message`:
type and content.  `p_manager` is dereferenced there (src/xcomm.cpp:23); the kernel pointer is set. -/
def Comms.outgoing (s : Comms) (a : Nat) (k : CommMsg) (data : Json) : Res (Str × Json) := do
  let c ← s.obj a
  let n ← s.node c.target
  if n.managed then
    return (k.type, commContent c.id data (if k = .open_ then some n.name else none))
  else .ub "null comm manager"

/-! ## Incoming messages: lookups -/

/-- `xguid id = content["comm_id"]`: the identifier has room for 55 bytes (include/xeus/xguid.hpp:27); what
happens beyond depends on the error policy of xtl's fixed strings and is not modelled. -/
def toXguid (j : Json) : Res Str := do
  let s ← j.getStr
  if s.length ≤ 55 then return s else .ub "xguid capacity exceeded"

/-- `comm_open` up to the call of the callback (src/xcomm.cpp:64-79): address of the new local comm, and the
callback. -/
def Comms.openLookup (s : Comms) (content : Json) : Res (Nat × Option Nat × Comms) := do
  let tn ← content.cidx (lit "target_name")
  let targetName ← tn.getStr
  match alGet targetName s.names with
  | none => .exc (.runtime "No such comm target registered")
  | some t => do
    let n ← s.node t
    let j ← content.cidx (lit "comm_id")
    let id ← toXguid j
    let r ← s.construct t id
    return (r.1, n.callback, r.2)

/-- `comm_close` and `comm_msg` up to the call of the handler (src/xcomm.cpp:85-94, 101-110). -/
def Comms.msgLookup (s : Comms) (content : Json) : Res (Str × Comm) := do
  let j ← content.cidx (lit "comm_id")
  let id ← toXguid j
  match alGet id s.reg with
  | none => .exc (.runtime "No such comm registered")
  | some a => do
    let c ← s.obj a
    return (id, c)

/-- The registry as listed by `comm_info_request` (src/xkernel_core.cpp:333-342): dereferences every
registered comm and its target. -/
def Comms.listing (s : Comms) : List (Str × Nat) → Res (List (Str × Str))
  | [] => .ok []
  | (id, a) :: r => do
    let c ← s.obj a
    let n ← s.node c.target
    let rest ← s.listing r
    return (id, n.name) :: rest

end Xeus
