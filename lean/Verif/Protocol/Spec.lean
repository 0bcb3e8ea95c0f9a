import Verif.Kernel.OutSpec

/-!
# The Jupyter messaging protocol: specifications

What version 5.3 of the protocol, which the kernel claims to speak, requires of the contents of the messages a kernel sends
(https://jupyter-client.readthedocs.io/en/stable/messaging.html, the reference given by docs/source/kernel_implementation.rst): the
members that have to be there and what kind of value they are.  Further members are allowed.  What is said about messages of the kernel that are
not part of the protocol is `Deviates`.
-/

namespace Xeus.Protocol

open Xeus Spec

/-! ## Kinds of values -/

def Text (v : Json) : Prop := ∃ s, v = .str s
def Flag (v : Json) : Prop := ∃ b, v = .bool b
def Whole (v : Json) : Prop := ∃ n, v = .int n
def Dict (v : Json) : Prop := ∃ l, v = .obj l
def ListOf (P : Json → Prop) (v : Json) : Prop := ∃ l, v = .arr l ∧ ∀ x ∈ l, P x
def Const (s : String) (v : Json) : Prop := v = .str (lit s)

/-- The object has a member of this kind. -/
def Has (c : Json) (k : String) (P : Json → Prop) : Prop := ∃ v, c.find? (lit k) = some v ∧ P v

/-- All members of an object are of this kind. -/
def DictOf (P : Json → Prop) (v : Json) : Prop := ∃ l, v = .obj l ∧ ∀ x ∈ l, P x.2

/-! ## Replies -/

/-- "status=ok: The request was processed successfully." -/
def Fine (c : Json) : Prop := Has c "status" (Const "ok")

/-- "status=error: The request failed due to an error", with the description of the error. -/
def Failed (c : Json) : Prop :=
  Has c "status" (Const "error") ∧ Has c "ename" Text ∧ Has c "evalue" Text ∧ Has c "traceback" (ListOf Text)

/-- "status=aborted: This is the same as status=error but with no information about the error. No fields should be present other than
status." -/
def Aborted (c : Json) : Prop := c = .obj [(lit "status", .str (lit "aborted"))]

/-- A reply with these members if all went well. -/
def Reply (P : Json → Prop) (c : Json) : Prop := Fine c ∧ P c ∨ Failed c ∨ Aborted c

/-- An entry of the history: session and line are numbers; the input alone, or with the output. -/
def Entry (v : Json) : Prop :=
  (∃ s n i, v = .arr [.int s, .int n, .str i]) ∨ ∃ s n i o, v = .arr [.int s, .int n, .arr [.str i, o]]

/-- What an interpreter tells about its kernel. -/
def Info (c : Json) : Prop :=
  Has c "implementation" Text ∧ Has c "implementation_version" Text ∧ Has c "banner" Text ∧
  Has c "language_info" fun v => Has v "name" Text ∧ Has v "version" Text ∧ Has v "mimetype" Text ∧ Has v "file_extension" Text

/-- The contents by type of message. -/
def table : List (String × (Json → Prop)) :=
  [-- published
   ("status", fun c => Has c "execution_state" fun v => Const "busy" v ∨ Const "idle" v ∨ Const "starting" v),
   ("stream", fun c => Has c "name" (fun v => Const "stdout" v ∨ Const "stderr" v) ∧ Has c "text" Text),
   ("display_data", fun c => Has c "data" Dict ∧ Has c "metadata" Dict ∧ Has c "transient" Dict),
   ("update_display_data", fun c => Has c "data" Dict ∧ Has c "metadata" Dict ∧ Has c "transient" Dict),
   ("execute_input", fun c => Has c "code" Text ∧ Has c "execution_count" Whole),
   ("execute_result", fun c => Has c "execution_count" Whole ∧ Has c "data" Dict ∧ Has c "metadata" Dict),
   ("error", fun c => Has c "ename" Text ∧ Has c "evalue" Text ∧ Has c "traceback" (ListOf Text)),
   ("clear_output", fun c => Has c "wait" Flag),
   ("comm_open", fun c => Has c "comm_id" Text ∧ Has c "target_name" Text ∧ Has c "data" Dict),
   ("comm_msg", fun c => Has c "comm_id" Text ∧ Has c "data" Dict),
   ("comm_close", fun c => Has c "comm_id" Text ∧ Has c "data" Dict),
   -- replies
   ("execute_reply", fun c => Has c "execution_count" Whole ∧ (Fine c ∨ Failed c) ∨ Aborted c),
   ("inspect_reply", Reply fun c => Has c "found" Flag ∧ Has c "data" Dict ∧ Has c "metadata" Dict),
   ("complete_reply", Reply fun c => Has c "matches" (ListOf Text) ∧ Has c "cursor_start" Whole ∧ Has c "cursor_end" Whole ∧
      Has c "metadata" Dict),
   ("history_reply", Reply fun c => Has c "history" (ListOf Entry)),
   ("is_complete_reply", fun c => Has c "status" (fun v => Const "complete" v ∨ Const "invalid" v ∨ Const "unknown" v) ∨
      Has c "status" (Const "incomplete") ∧ Has c "indent" Text),
   ("kernel_info_reply", Reply fun c => Has c "protocol_version" Text ∧ Info c),
   ("comm_info_reply", Reply fun c => Has c "comms" (DictOf fun v => Has v "target_name" Text)),
   ("shutdown_reply", Reply fun c => Has c "restart" Flag),
   ("interrupt_reply", Reply fun _ => True),
   -- to the standard input of the client
   ("input_request", fun c => Has c "prompt" Text ∧ Has c "password" Flag)]

/-- The content of a message of this type is as the protocol requires. -/
def Documented (t : Str) (c : Json) : Prop := ∃ r ∈ table, t = lit r.1 ∧ r.2 c

/-! ## What the kernel does differently -/

/-- Type and content of the messages that are not as the protocol requires. -/
inductive Deviates : Str → Json → Prop
  /-- notifications the protocol does not know -/
  | shutdown (b : Bool) : Deviates (lit "shutdown") (.obj [(lit "restart", .bool b)])
  | interrupt : Deviates (lit "interrupt") (.obj [])
  /-- there is no status -/
  | shutdownReply (b : Bool) : Deviates (lit "shutdown_reply") (.obj [(lit "restart", .bool b)])
  | interruptReply : Deviates (lit "interrupt_reply") (.obj [])
  /-- the replies to aborted requests say `error` without a description, in place of `aborted` -/
  | aborted (t : Str) : Deviates t (.obj [(lit "status", .str (lit "error"))])
  /-- the member is to be called `password` -/
  | input (prompt : Str) (hidden : Bool) : Deviates (lit "input_request") (.obj [(lit "prompt", .str prompt), (lit "pwd", .bool hidden)])
  /-- session and line are texts, and the output is a fourth element -/
  | history (row : List Str) (rows : List (List Str)) : Deviates (lit "history_reply")
      (.obj [(lit "history", .arr ((row :: rows).map fun r => .arr (r.map .str))), (lit "status", .str (lit "ok"))])
  /-- neither `evalue` nor `traceback` -/
  | range (e : Str) : Deviates (lit "history_reply") (.obj [(lit "ename", .str e), (lit "status", .str (lit "error"))])
  /-- the kind of access is not known -/
  | access : Deviates (lit "history_reply") .null
  /-- not part of version 5.3; the contents are those of the debug adapter protocol -/
  | debug (c : Json) : Deviates (lit "debug_reply") c

/-- The event is a message of this type with this content. -/
def Says (e : Ev) (t : Str) (c : Json) : Prop :=
  ∃ b, bodyOf e = some b ∧ b.header.find? (lit "msg_type") = some (.str t) ∧ b.content = c

/-- If the event is a message, it has a type, and it is documented or one of the deviations. -/
def Known (e : Ev) : Prop := bodyOf e = none ∨ ∃ t c, Says e t c ∧ (Documented t c ∨ Deviates t c)

/-- The types of the messages whose contents are made by the kernel itself. -/
def kernelTypes : List Str :=
  [lit "status", lit "execute_input", lit "error", lit "clear_output", lit "history_reply", lit "comm_info_reply", lit "shutdown_reply",
   lit "interrupt_reply", lit "shutdown", lit "interrupt", lit "input_request"]

/-! ## Interpreters that keep to the protocol -/

/-- What is published is given as the protocol requires. -/
def PubOk : PubOp → Prop
  | .stream n _ => n = lit "stdout" ∨ n = lit "stderr"
  | .display d m t | .updateDisplay d m t => Dict d ∧ Dict m ∧ Dict t
  | .execResult _ d m => Dict d ∧ Dict m
  | .execInput _ _ | .execError _ _ _ | .clearOutput _ => True

def OpOk : Op → Prop
  | .pub p => PubOk p
  | .commSend _ _ _ data _ => Dict data
  | _ => True

def DOpOk : DOp → Prop
  | .base o => OpOk o
  | .toShell _ => True

/-- All calls the code makes are `ok`, and what it returns is `Q`. -/
def Obeys {σ Ω α : Type} (ok : Ω → Prop) (Q : α → Prop) : Prog σ Ω α → Prop
  | .ret a => Q a
  | .throw _ | .ub _ | .hang => True
  | .get k => ∀ s, Obeys ok Q (k s)
  | .set _ k => Obeys ok Q k
  | .call o k => ok o ∧ ∀ r, Obeys ok Q (k r)

/-- The interpreter publishes and returns what the protocol requires of it. -/
structure Conforming {σ : Type} (I : Interp σ) : Prop where
  execute : ∀ n code silent store exprs allow, Obeys OpOk (fun c => Fine c ∨ Failed c) (I.execute n code silent store exprs allow)
  complete : ∀ code pos, Obeys OpOk (Documented (lit "complete_reply")) (I.complete code pos)
  inspect : ∀ code pos detail, Obeys OpOk (Documented (lit "inspect_reply")) (I.inspect code pos detail)
  isComplete : ∀ code, Obeys OpOk (Documented (lit "is_complete_reply")) (I.isComplete code)
  kernelInfo : Obeys OpOk (fun c => Fine c ∧ Info c ∨ Failed c) I.kernelInfo
  shutdown : Obeys OpOk (fun _ => True) I.shutdown
  internal : ∀ j, Obeys OpOk (fun _ => True) (I.internal j)
  target : ∀ cb a m, Obeys OpOk (fun _ => True) (I.target cb a m)
  handler : ∀ h m, Obeys OpOk (fun _ => True) (I.handler h m)
  debug : ∀ d, I.debug = some d → ∀ h c, Obeys DOpOk (fun _ => True) (d h c)

end Xeus.Protocol
