import Verif.Kernel.Spec

/-!
# Outgoing messages and transcripts: specifications
-/

namespace Xeus.Spec

open Xeus

/-! ## Outgoing messages -/

/-- The messages among some events (the rest are calls of user code and the like). -/
def messagesIn : List Ev → List Ev
  | [] => []
  | .pub c m wire :: r => .pub c m wire :: messagesIn r
  | .reply c m wire :: r => .reply c m wire :: messagesIn r
  | .stdin m wire :: r => .stdin m wire :: messagesIn r
  | _ :: r => messagesIn r

/-- The event is a message of the kernel of `env` whose identifier is the `n`-th GUID: six header members, the topic
belonging to its type if it is published, no delimiter among its identities if it is sent to somebody, and on the wire
it is serialised with the key of the kernel. -/
def Emitted (env : Env) (n : Nat) (e : Ev) : Prop :=
  ∃ date type,
    (∃ c m wire, e = .pub c m wire ∧ m.topic = lit "kernel_core." ++ env.kernelId ++ lit "." ++ type ∧
      m.body.header = headerOf (newXguid (env.guid n)) env.user env.session date type ∧
      serializePub env.C env.J env.auth env.eh m = .ok wire) ∨
    (∃ m wire, ((∃ c, e = .reply c m wire) ∨ e = .stdin m wire) ∧ delim ∉ m.ids ∧
      m.body.header = headerOf (newXguid (env.guid n)) env.user env.session date type ∧
      serialize env.C env.J env.auth env.eh m = .ok wire)

/-- The two lists are related, element by element. -/
inductive Paired {α β : Type} (R : α → β → Prop) : List α → List β → Prop
  | nil : Paired R [] []
  | cons {a b as bs} : R a b → Paired R as bs → Paired R (a :: as) (b :: bs)

/-- The body of the message. -/
def bodyOf : Ev → Option Body
  | .pub _ m _ => some m.body
  | .reply _ m _ => some m.body
  | .stdin m _ => some m.body
  | _ => none

/-- The identifier of the message. -/
def msgId (e : Ev) : Option Json := do
  let b ← bodyOf e
  b.header.find? (lit "msg_id")

/-- The JSON parts are values `nlohmann::json` can hold: the members of objects are sorted and have distinct keys. -/
structure CanonBody (b : Body) : Prop where
  header : b.header.canon = true
  parent : b.parent.canon = true
  metadata : b.metadata.canon = true
  content : b.content.canon = true

/-! ## Transcripts -/

/-- The events of one handled message: `busy`, events that are not status notifications, `idle`. -/
def Block (env : Env) (m : XMessage) (c : Chan) (es : List Ev) : Prop :=
  ∃ b inner i, es = [b] ++ inner ++ [i] ∧ IsStatus env c "busy" m.body.header b ∧ (∀ e ∈ inner, ¬ AnyStatus e) ∧
    IsStatus env c "idle" m.body.header i

/-- The events are one block per accepted message, in order. -/
inductive Transcript (env : Env) : List (Multipart × Chan) → List Ev → Prop
  | nil : Transcript env [] []
  | rejected {q c r es} : Refused env.C env.J env.auth q → Transcript env r es → Transcript env ((q, c) :: r) es
  | accepted {q m c r blk es} : Accepted env.C env.J env.auth q m → Block env m c blk → Transcript env r es →
      Transcript env ((q, c) :: r) (blk ++ es)

/-- The beginning of a block: `busy` and then anything but status notifications. -/
def OpenBlock (env : Env) (m : XMessage) (c : Chan) (es : List Ev) : Prop :=
  ∃ b inner, es = [b] ++ inner ∧ IsStatus env c "busy" m.body.header b ∧ ∀ e ∈ inner, ¬ AnyStatus e

end Xeus.Spec
