import Verif.Dap.Model
import Verif.Dap.FramingSpec
import Verif.Kernel.Spec

/-!
# The debug adapter client: specifications
-/

namespace Xeus.Spec

open Xeus

/-- The text is a JSON value on which the condition can be evaluated. -/
def Decided (J : Codec) (cond : Json → Res Bool) (raw : Str) : Prop :=
  ∃ j b, J.parse raw = some j ∧ cond j = .ok b

/-- The text is a JSON value that satisfies the condition. -/
def hits (J : Codec) (cond : Json → Res Bool) (raw : Str) : Bool :=
  match J.parse raw with
  | some j => decide (cond j = .ok true)
  | none => false

/-- Successive batches of messages delivered by the stream: what remains after them. -/
inductive Batches : List Str → List (List Str) → List Str → Prop
  | nil {cs} : Batches cs [] cs
  | cons {cs b cs₁ bs cs₂} : handleTcp [] cs = .got b cs₁ → Batches cs₁ bs cs₂ → Batches cs (b :: bs) cs₂

/-- The member `k` of a JSON object is the text `v`. -/
def memberIs (j : Json) (k v : String) : Bool := decide (j.find? (lit k) = some (.str (lit v)))

/-- The text is a JSON object with two given members. -/
def carries (J : Codec) (k₁ v₁ k₂ v₂ : String) (raw : Str) : Bool :=
  match J.parse raw with
  | some j => memberIs j k₁ v₁ && memberIs j k₂ v₂
  | none => false

/-- The text is a message of the debug adapter protocol: a JSON object with a type; events have a name and responses
the command answered. -/
def DapText (J : Codec) (raw : Str) : Prop :=
  ∃ j t, J.parse raw = some j ∧ j.find? (lit "type") = some t ∧
    (t = .str (lit "event") → (j.find? (lit "event")).isSome = true) ∧
    (t = .str (lit "response") → (j.find? (lit "command")).isSome = true)

/-- The text is an event. -/
def isEventText (J : Codec) (raw : Str) : Bool :=
  match J.parse raw with
  | some j => memberIs j "type" "event"
  | none => false

/-- The text is an answer to a `disconnect` request. -/
def isDisconnectText (J : Codec) (raw : Str) : Bool :=
  match J.parse raw with
  | some j => !memberIs j "type" "event" && memberIs j "command" "disconnect"
  | none => false

/-- The text is a JSON object. -/
def ObjectText (J : Codec) (raw : Str) : Prop := ∃ kvs, J.parse raw = some (.obj kvs)

/-- Where a message of the adapter goes: events to the event handler, everything else verbatim to the requester. -/
def routeOf (J : Codec) (raw : Str) : Option DapEv :=
  match J.parse raw with
  | some j => some (if memberIs j "type" "event" then .event j else .reply raw)
  | none => none

/-- The entries of a trace that concern routing. -/
def routes (out : List DapEv) : List DapEv :=
  out.filter fun
    | .event _ | .reply _ => true
    | _ => false

/-- The events handled. -/
def handled (out : List DapEv) : List Json :=
  out.filterMap fun
    | .event j => some j
    | _ => none

/-- The bytes sent to the adapter. -/
def sentTo (out : List DapEv) : List Str :=
  out.filterMap fun
    | .tcp b => some b
    | _ => none

/-- The parent header received last, if any. -/
def lastHeader (out : List DapEv) : Option Str :=
  (out.filterMap fun
    | .header h => some h
    | _ => none).getLast?

/-- The parent header that a debug event must carry after `out`: the one received last; an empty object if none has
been received or if it was empty.  `none`: it was not JSON. -/
def parentAfter (J : Codec) (out : List DapEv) : Option Json :=
  match lastHeader out with
  | none => some (.obj [])
  | some [] => some (.obj [])
  | some h => J.parse h

/-- How a debug event must be published: `before` is everything the client has done before. -/
structure DebugPub (env : Env) (before : List DapEv) (m : PubMessage) (wire : Multipart) : Prop where
  topic : m.topic = lit "debug_event"
  header : WfHeader env (lit "debug_event") m.body.header
  /-- the parent header received last -/
  parent : parentAfter env.J before = some m.body.parent
  /-- the content is the event, which the debugger of the kernel has just been told about -/
  event : ∃ pre, before = pre ++ [.callback m.body.content]
  metadata : m.body.metadata = .obj []
  buffers : m.body.buffers = []
  /-- signed with the key of the kernel -/
  wire : serializePub env.C env.J env.auth .strict m = .ok wire

/-- All publications of a trace are so. -/
def Attributed (env : Env) (out : List DapEv) : Prop :=
  ∀ pre m wire post, out = pre ++ .pub m wire :: post → DebugPub env pre m wire

/-- The run of the client: it has reached the top of the loop, or it has left the loop from there by an exception (or
undefined behaviour, or a wait without end). -/
inductive DapRun {σ : Type} (cl : Client σ) (s₀ : Dap σ) : Res Unit → Dap σ → Prop
  | top {s} : DapReach cl s₀ s → DapRun cl s₀ (.ok ()) s
  | left {s r s'} : DapReach cl s₀ s → Iter cl s r s' → DapRun cl s₀ r s'

/-- User code that does not wait for messages. -/
inductive NoWait {σ α : Type} : Prog σ DapOp α → Prop
  | ret {a} : NoWait (.ret a)
  | throw {e} : NoWait (.throw e)
  | ub {w} : NoWait (.ub w)
  | hang : NoWait .hang
  | get {k} : (∀ s, NoWait (k s)) → NoWait (.get k)
  | set {s k} : NoWait k → NoWait (.set s k)
  | forward {j k} : (∀ r, NoWait (k r)) → NoWait (.call (.forward j) k)
  | request {j k} : (∀ r, NoWait (k r)) → NoWait (.call (.request j) k)
  | parent {k} : (∀ r, NoWait (k r)) → NoWait (.call .parentHeader k)

/-- User code that only waits for messages other than `ev` (the event being handled). -/
inductive Polite {σ α : Type} (ev : Json) : Prog σ DapOp α → Prop
  | ret {a} : Polite ev (.ret a)
  | throw {e} : Polite ev (.throw e)
  | ub {w} : Polite ev (.ub w)
  | hang : Polite ev .hang
  | get {k} : (∀ s, Polite ev (k s)) → Polite ev (.get k)
  | set {s k} : Polite ev k → Polite ev (.set s k)
  | forward {j k} : (∀ r, Polite ev (k r)) → Polite ev (.call (.forward j) k)
  | request {j k} : (∀ r, Polite ev (k r)) → Polite ev (.call (.request j) k)
  | parent {k} : (∀ r, Polite ev (k r)) → Polite ev (.call .parentHeader k)
  | wait {cond k} : cond ev ≠ .ok true → (∀ r, Polite ev (k r)) → Polite ev (.call (.wait cond) k)

/-- User code that only waits for messages other than `ev` (the event being handled) and that gives up if a wait
fails. -/
inductive Orderly {σ α : Type} (ev : Json) : Prog σ DapOp α → Prop
  | ret {a} : Orderly ev (.ret a)
  | throw {e} : Orderly ev (.throw e)
  | ub {w} : Orderly ev (.ub w)
  | hang : Orderly ev .hang
  | get {k} : (∀ s, Orderly ev (k s)) → Orderly ev (.get k)
  | set {s k} : Orderly ev k → Orderly ev (.set s k)
  | forward {j k} : (∀ r, Orderly ev (k r)) → Orderly ev (.call (.forward j) k)
  | request {j k} : (∀ r, Orderly ev (k r)) → Orderly ev (.call (.request j) k)
  | parent {k} : (∀ r, Orderly ev (k r)) → Orderly ev (.call .parentHeader k)
  | wait {cond k} : cond ev ≠ .ok true → (∀ v, Orderly ev (k (.ok v))) → (∀ e, k (.error e) = .throw e) →
      Orderly ev (.call (.wait cond) k)

/-- The events among some messages. -/
def eventTexts (J : Codec) (l : List Str) : List Json :=
  l.filterMap fun raw =>
    match J.parse raw with
    | some j => if memberIs j "type" "event" then some j else none
    | none => none

end Xeus.Spec
