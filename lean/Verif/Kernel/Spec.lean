import Verif.Kernel.Model
import Verif.Wire.Spec
import Verif.History.Spec
import Verif.Fields

/-!
# The kernel core: specifications

Vocabulary in which the properties of the kernel are stated.  It only uses the data types of the model
(messages, events, states), JSON objects written out, and the specifications of the wire format.
-/

namespace Xeus.Spec

open Xeus

/-! ## Headers -/

/-- The header of a message of type `type` sent by a kernel: exactly these six members. -/
def headerOf (msgId user session date type : Str) : Json :=
  .obj [(lit "date", .str date), (lit "msg_id", .str msgId), (lit "msg_type", .str type),
        (lit "session", .str session), (lit "username", .str user), (lit "version", .str (lit "5.3"))]

/-- A header made by the kernel of `env` for the given type. -/
def WfHeader (env : Env) (type : Str) (h : Json) : Prop :=
  ∃ msgId date, h = headerOf msgId env.user env.session date type

/-! ## Events -/

/-- The event is the publication of status `s` on channel `c` with the given parent header. -/
def IsStatus (env : Env) (c : Chan) (s : String) (parent : Json) (e : Ev) : Prop :=
  ∃ m wire, e = .pub c m wire ∧ WfHeader env (lit "status") m.body.header ∧ m.body.parent = parent ∧
    m.body.content = .obj [(lit "execution_state", .str (lit s))] ∧ m.body.metadata = .obj [] ∧
    m.body.buffers = []

/-- Some status publication. -/
def AnyStatus (e : Ev) : Prop :=
  ∃ c m wire, e = .pub c m wire ∧ m.body.header.find? (lit "msg_type") = some (.str (lit "status"))

/-- A reply. -/
def AnyReply (e : Ev) : Prop := ∃ c m wire, e = .reply c m wire

/-- The replies among some events. -/
def repliesIn : List Ev → List Ev
  | [] => []
  | .reply c m wire :: r => .reply c m wire :: repliesIn r
  | _ :: r => repliesIn r

/-- The calls of user code among some events. -/
def callsIn : List Ev → List Call
  | [] => []
  | .call k :: r => k :: callsIn r
  | _ :: r => callsIn r

/-- A reply of type `type` to the sender `ids` of a message with header `header`, on channel `c`. -/
def IsReply (env : Env) (c : Chan) (ids : List Str) (header : Json) (type : Str) (e : Ev) : Prop :=
  ∃ m wire, e = .reply c m wire ∧ m.ids = ids ∧ m.body.parent = header ∧
    WfHeader env type m.body.header ∧ m.body.buffers = []

/-- As `IsReply`, with metadata and content. -/
def IsReplyWith (env : Env) (c : Chan) (ids : List Str) (header : Json) (type : Str) (metadata content : Json)
    (e : Ev) : Prop :=
  ∃ m wire, e = .reply c m wire ∧ m.ids = ids ∧ m.body.parent = header ∧
    WfHeader env type m.body.header ∧ m.body.metadata = metadata ∧ m.body.content = content ∧ m.body.buffers = []

/-- The event is the publication on channel `c` of type `type` with the given parent header and content. -/
def IsPub (env : Env) (c : Chan) (type : Str) (parent metadata content : Json) (buffers : List Frame)
    (e : Ev) : Prop :=
  ∃ m wire, e = .pub c m wire ∧ m.topic = lit "kernel_core." ++ env.kernelId ++ lit "." ++ type ∧
    WfHeader env type m.body.header ∧ m.body.parent = parent ∧ m.body.metadata = metadata ∧
    m.body.content = content ∧ m.body.buffers = buffers

/-! ## Message types -/

/-- Type of a message: `none` when the header is not an object or `msg_type` is not a text; an absent type
counts as the empty text. -/
def typeOf (header : Json) : Option Str :=
  if header.isObj then strField header "msg_type" "" else none

/-- Type of the reply to a request. -/
def replyType : Req → Option String
  | .execute => some "execute_reply"
  | .complete => some "complete_reply"
  | .inspect => some "inspect_reply"
  | .history => some "history_reply"
  | .isComplete => some "is_complete_reply"
  | .commInfo => some "comm_info_reply"
  | .commOpen | .commClose | .commMsg => none
  | .kernelInfo => some "kernel_info_reply"
  | .shutdown => some "shutdown_reply"
  | .interrupt => some "interrupt_reply"
  | .debug => some "debug_reply"

/-- Name of a request on the wire. -/
def requestType : Req → String
  | .execute => "execute_request"
  | .complete => "complete_request"
  | .inspect => "inspect_request"
  | .history => "history_request"
  | .isComplete => "is_complete_request"
  | .commInfo => "comm_info_request"
  | .commOpen => "comm_open"
  | .commClose => "comm_close"
  | .commMsg => "comm_msg"
  | .kernelInfo => "kernel_info_request"
  | .shutdown => "shutdown_request"
  | .interrupt => "interrupt_request"
  | .debug => "debug_request"

/-- The message is a request of kind `r`. -/
def IsReq (m : XMessage) (r : Req) : Prop := typeOf m.body.header = some (lit (requestType r))

/-! ## Execute requests -/

/-- The fields of an execute request. -/
structure ExecFields where
  code : Str
  silent : Bool
  store : Bool
  line : Int
  exprs : Json
  allow : Bool
  stop : Bool

/-- The fields with the documented defaults; `none` when the content is not an object or a field has another
than the documented type or does not fit. -/
def execFields (content : Json) : Option ExecFields :=
  if content.isObj then do
    let code ← strField content "code" ""
    let silent ← boolField content "silent" false
    let store ← boolField content "store_history" true
    let line ← intField content "execution_count" 1
    let allow ← boolField content "allow_stdin" true
    let stop ← boolField content "stop_on_error" false
    return ⟨code, silent, store, line, jsonField content "user_expressions" (.obj []), allow, stop⟩
  else none

/-- The execution count of the request is a double that is no `int`, and the fields read before it are as documented. -/
def ExecWild (content : Json) : Prop :=
  content.isObj = true ∧ (strField content "code" "").isSome = true ∧ (boolField content "silent" false).isSome = true ∧
    (boolField content "store_history" true).isSome = true ∧ Wild content "execution_count"

/-- The message is a well-formed execute request with `silent = false`. -/
def Counts (m : XMessage) : Prop :=
  IsReq m .execute ∧ ∃ f, execFields m.body.content = some f ∧ f.silent = false

/-! ## Abort replies -/

/-- Type of the reply to an aborted request of type `t`: from the last underscore on, at most eight bytes are
replaced by `_reply`. -/
def AbortType (t t' : Str) : Prop :=
  ∃ a b, t = a ++ lit "_" ++ b ∧ 95 ∉ b ∧ t' = a ++ lit "_reply" ++ b.drop 7

/-- The error reply to the message `m` found in the queue. -/
def IsAbortReply (env : Env) (m : XMessage) (e : Ev) : Prop :=
  ∃ t t', typeOf m.body.header = some t ∧ AbortType t t' ∧
    IsReplyWith env .shell m.ids m.body.header t' (.obj [])
      (.obj [(lit "status", .str (lit "error"))]) e

/-- A queued multipart that can be dropped or answered: it is malformed, or its type is a text with an underscore
for which the name of the abort reply is printable. -/
def Abortable (env : Env) (q : Multipart) : Prop :=
  Refused env.C env.J env.auth q ∨
  ∃ m t t', Accepted env.C env.J env.auth q m ∧ typeOf m.body.header = some t ∧ AbortType t t' ∧
    (env.eh = .strict → Utf8 t')

/-- `ab` are the abort replies to the queued multiparts, in order: one error reply for each well-formed one,
nothing for the malformed ones. -/
inductive AbortAll (env : Env) : List Multipart → List Ev → Prop
  | nil : AbortAll env [] []
  | dropped {q qs ab} : Refused env.C env.J env.auth q → AbortAll env qs ab → AbortAll env (q :: qs) ab
  | answered {q m e qs ab} : Accepted env.C env.J env.auth q m → IsAbortReply env m e → AbortAll env qs ab →
      AbortAll env (q :: qs) (e :: ab)

/-! ## Events between `busy` and `idle` -/

/-- The kinds of requests that make the kernel call a piece of user code. -/
def callReqs : Call → List Req
  | .execute .. => [.execute]
  | .complete .. => [.complete]
  | .inspect .. => [.inspect]
  | .isComplete .. => [.isComplete]
  | .kernelInfo => [.kernelInfo]
  | .shutdown => [.shutdown]
  | .debug .. => [.debug]
  | .target .. => [.commOpen]
  | .handler .. => [.commClose, .commMsg]

/-- Types of the messages user code can publish. -/
def outputTypes : List String :=
  ["stream", "display_data", "update_display_data", "execute_input", "execute_result", "error", "clear_output",
   "comm_open", "comm_close", "comm_msg"]

/-- Output of user code on behalf of the request remembered as `p`: a publication with its header as parent, or a
request for input to its sender. -/
def IsOutput (env : Env) (p : Parent) (e : Ev) : Prop :=
  (∃ m wire t, e = .pub .shell m wire ∧ t ∈ outputTypes ∧ WfHeader env (lit t) m.body.header ∧
    m.body.parent = p.header) ∨
  (∃ m wire, e = .stdin m wire ∧ m.ids = p.ids ∧ m.body.parent = p.header ∧
    WfHeader env (lit "input_request") m.body.header)

/-- The notification that goes with a shutdown or interrupt request. -/
def IsNotice (env : Env) (r : Req) (parent : Json) (e : Ev) : Prop :=
  ∃ m wire t, e = .pub .control m wire ∧ (r = .shutdown ∧ t = "shutdown" ∨ r = .interrupt ∧ t = "interrupt") ∧
    WfHeader env (lit t) m.body.header ∧ m.body.parent = parent

/-- The remembered requests while `m` is handled on channel `c`. -/
def curParent {σ : Type} (m : XMessage) (c : Chan) (w : World σ) : Chan → Parent :=
  fun c' => if c' = c then ⟨m.ids, m.body.header⟩ else w.parent c'

/-- Events while a request of kind `r` is handled, apart from replies. -/
def Inner (env : Env) (r : Req) (par : Chan → Parent) (e : Ev) : Prop :=
  IsOutput env (par .shell) e ∨ IsNotice env r (par .control).header e ∨ (∃ k, e = .call k ∧ r ∈ callReqs k) ∨ (∃ x, e = .threw x) ∨
    (e = .stop ∧ r = .shutdown)

/-! ## Course of a request -/

/-- `w₁` is the state in which the kernel, having received `m` on channel `c` in state `w`, calls user code with
`k`: `busy` and then `pre` have been published, the execution counter is `n`, the parent of the channel is the
requester, and everything else is as in `w`. -/
structure AtCall {σ : Type} (env : Env) (m : XMessage) (c : Chan) (w : World σ) (n : Int) (pre : List Ev)
    (k : Call) (w₁ : World σ) : Prop where
  cur : w₁.parent c = ⟨m.ids, m.body.header⟩
  other : ∀ c', c' ≠ c → w₁.parent c' = w.parent c'
  st : w₁.st = w.st
  count : w₁.count = n
  input : w₁.input = w.input
  hist : w₁.hist = w.hist
  comm : w₁.comm = w.comm
  shellQ : w₁.shellQ = w.shellQ
  stdinQ : w₁.stdinQ = w.stdinQ
  out : ∃ b, IsStatus env c "busy" m.body.header b ∧ w₁.out = w.out ++ ([b] ++ pre ++ [.call k])

/-- From `w₂` on nothing happens but the events `evs` and the `idle` notification. -/
structure Concludes {σ : Type} (env : Env) (m : XMessage) (c : Chan) (w₂ : World σ) (evs : List Ev)
    (x : Res Unit × World σ) : Prop where
  ok : x.1 = .ok ()
  parent : x.2.parent = w₂.parent
  st : x.2.st = w₂.st
  count : x.2.count = w₂.count
  input : x.2.input = w₂.input
  hist : x.2.hist = w₂.hist
  comm : x.2.comm = w₂.comm
  shellQ : x.2.shellQ = w₂.shellQ
  stdinQ : x.2.stdinQ = w₂.stdinQ
  out : ∃ i, IsStatus env c "idle" m.body.header i ∧ x.2.out = w₂.out ++ (evs ++ [i])

/-- `j'` is the object `j` (null counting as an empty object) with member `k` set to `v`. -/
def WithMember (j : Json) (k : String) (v j' : Json) : Prop :=
  (j.isObj = true ∨ j = .null) ∧ j'.isObj = true ∧
    ∀ k', j'.find? k' = if k' = lit k then some v else j.find? k'

/-- Can be printed with the error handler (`nlohmann::json` can hold it and, for the strict handler, its
strings are UTF-8). -/
def Printable (eh : ErrH) (j : Json) : Prop := j.canon = true ∧ (eh = .strict → JsonUtf8 j)

/-- Metadata recording when the handling of a request started. -/
def Started (md : Json) : Prop := ∃ t, md = .obj [(lit "started", .str t)]

/-- If the user code `p`, called in state `w₁`, runs into undefined behaviour or blocks for ever, so does all of `x`. -/
def Diverges {σ Ω α : Type} (sem : Ω → K (World σ) Val) (p : Prog σ Ω α) (w₁ : World σ) (x : Res Unit × World σ) :
    Prop :=
  (∀ s w₂, (p.exec sem).run w₁ = (.ub s, w₂) → x = (.ub s, w₂)) ∧
  (∀ w₂, (p.exec sem).run w₁ = (.hang, w₂) → x = (.hang, w₂))

/-- The whole course of a request `m` (received as `q` on channel `c` in state `w`) that is served by calling the
user code `p` once, with `k`, and returning its answer verbatim as content of a reply of type `t`:

* user code starts in a state `w₁` that follows `w` directly, after `busy`;
* if it returns a printable `j`, the only further events are the reply with content `j` and `idle`;
* if it returns something unprintable or throws a `std::exception`, there is no reply but still `idle`;
* if it throws something else, that leaves the dispatch;
* if it does not end, neither does the dispatch. -/
def Verbatim {σ : Type} (env : Env) (I : Interp σ) (q : Multipart) (m : XMessage) (c : Chan) (w : World σ)
    {Ω : Type} (sem : Ω → K (World σ) Val) (k : Call) (p : Prog σ Ω Json) (t : String) (Md : Json → Prop) : Prop :=
  ∃ w₁, AtCall env m c w w.count [] k w₁ ∧
    (∀ j w₂, (p.exec sem).run w₁ = (.ok j, w₂) →
      ((env.eh = .strict → JsonUtf8 j) ∧
        ∃ md rep, Md md ∧ IsReplyWith env c m.ids m.body.header (lit t) md j rep ∧
          Concludes env m c w₂ [rep] ((dispatch env I q c).run w)) ∨
      (¬ Printable env.eh j ∧ Concludes env m c w₂ [] ((dispatch env I q c).run w))) ∧
    (∀ e w₂, (p.exec sem).run w₁ = (.exc e, w₂) → e.isStd = true →
        Concludes env m c w₂ [.threw e] ((dispatch env I q c).run w)) ∧
    (∀ e w₂, (p.exec sem).run w₁ = (.exc e, w₂) → e.isStd = false →
        (dispatch env I q c).run w = (.exc e, { w₂ with out := w₂.out ++ [.threw e] })) ∧
    Diverges sem p w₁ ((dispatch env I q c).run w)

/-- The count shown for an execute request. -/
def execCount {σ : Type} (w : World σ) (f : ExecFields) : Int := if f.silent then w.count else w.count + 1

/-- The call of user code for an execute request. -/
def execCall {σ : Type} (w : World σ) (f : ExecFields) : Call :=
  .execute (execCount w f) f.code f.silent (f.store && !f.silent) f.exprs f.allow

/-- The user code that serves an execute request. -/
def execProg {σ : Type} (I : Interp σ) (w : World σ) (f : ExecFields) : Prog σ Op Json :=
  I.execute (execCount w f) f.code f.silent (f.store && !f.silent) f.exprs f.allow

/-- Parent header of what is published on behalf of user code while `m` is handled on channel `c`: the header of
the latest message received on the shell channel. -/
def shellParent {σ : Type} (m : XMessage) (c : Chan) (w : World σ) : Json :=
  if c = .shell then m.body.header else (w.parent .shell).header

/-- What is published between `busy` and the call of user code: nothing if silent, else one `execute_input` with
the code and the new count. -/
def ExecAnnounce {σ : Type} (env : Env) (m : XMessage) (c : Chan) (w : World σ) (f : ExecFields) (pre : List Ev) :
    Prop :=
  if f.silent then pre = []
  else ∃ ev, pre = [ev] ∧ IsPub env .shell (lit "execute_input") (shellParent m c w) (.obj [])
    (.obj [(lit "code", .str f.code), (lit "execution_count", .int (w.count + 1))]) [] ev

/-- The request makes the kernel abort the queue when user code answers with status `s`. -/
def Aborts (f : ExecFields) (s : Str) : Prop := f.silent = false ∧ f.stop = true ∧ s = lit "error"

/-- What an execute request adds to the history when it is answered. -/
def execEntries (f : ExecFields) : Hist :=
  if f.store && !f.silent then [⟨lit "0", intToString f.line, f.code, []⟩] else []

/-- The end of an execute request whose reply `rep` could be sent, after user code returned in state `w₂` an
answer with status `s`.  When the queue is aborted, its longest abortable prefix `done` is dealt with in order; if
something is left then the first such multipart (`stuck`) is lost and the rest stays in the queue. -/
def ExecEnd {σ : Type} (env : Env) (m : XMessage) (c : Chan) (w₂ : World σ) (f : ExecFields) (s : Str) (rep : Ev)
    (x : Res Unit × World σ) : Prop :=
  (¬ Aborts f s → Concludes env m c { w₂ with hist := w₂.hist ++ execEntries f } [rep] x) ∧
  (Aborts f s → ∃ done stuck rest ab, w₂.shellQ = done ++ stuck ++ rest ∧
    (∀ q ∈ done, Abortable env q) ∧ AbortAll env done ab ∧ stuck.length ≤ 1 ∧ (∀ q ∈ stuck, ¬ Abortable env q) ∧
    (stuck = [] → rest = []) ∧
    ((∀ q ∈ stuck, ¬ Undefined env.J env.auth q) →
      Concludes env m c { w₂ with hist := w₂.hist ++ execEntries f, shellQ := rest } ([rep] ++ ab) x) ∧
    ((∃ q ∈ stuck, Undefined env.J env.auth q) → ∃ why w₃, x = (.ub why, w₃) ∧ w₃.out = w₂.out ++ ([rep] ++ ab) ∧
      w₃.count = w₂.count ∧ w₃.hist = w₂.hist ++ execEntries f ∧ w₃.parent = w₂.parent))

/-- The whole course of a well-formed execute request with fields `f`:

* user code starts in a state `w₁` that follows `w` directly, after `busy` and the announcement;
* a `std::exception` thrown by it ends the request without reply, another exception leaves the dispatch;
* an answer that is neither an object nor null, or whose status is not a text, or that cannot be printed, ends the
  request without reply and without history entry;
* otherwise the only further events are the reply with the execution count inserted, the abort replies, and
  `idle`;
* user code that does not end makes the dispatch not end. -/
def ExecCourse {σ : Type} (env : Env) (I : Interp σ) (q : Multipart) (m : XMessage) (c : Chan) (w : World σ)
    (f : ExecFields) : Prop :=
  ∃ w₁ pre, AtCall env m c w (execCount w f) pre (execCall w f) w₁ ∧ ExecAnnounce env m c w f pre ∧
    (∀ e w₂, ((execProg I w f).exec (Op.sem env)).run w₁ = (.exc e, w₂) → e.isStd = true →
      Concludes env m c w₂ [.threw e] ((dispatch env I q c).run w)) ∧
    (∀ e w₂, ((execProg I w f).exec (Op.sem env)).run w₁ = (.exc e, w₂) → e.isStd = false →
      (dispatch env I q c).run w = (.exc e, { w₂ with out := w₂.out ++ [.threw e] })) ∧
    (∀ j w₂, ((execProg I w f).exec (Op.sem env)).run w₁ = (.ok j, w₂) →
      (¬ (j.isObj = true ∨ j = .null) ∨ strField j "status" "error" = none) →
      Concludes env m c w₂ [] ((dispatch env I q c).run w)) ∧
    (∀ j w₂ s, ((execProg I w f).exec (Op.sem env)).run w₁ = (.ok j, w₂) → (j.isObj = true ∨ j = .null) →
      strField j "status" "error" = some s →
      ∃ j', WithMember j "execution_count" (.int (execCount w f)) j' ∧ (Printable env.eh j → Printable env.eh j') ∧
        (((env.eh = .strict → JsonUtf8 j') ∧ ∃ md rep, Started md ∧
          IsReplyWith env c m.ids m.body.header (lit "execute_reply") md j' rep ∧
          ExecEnd env m c w₂ f s rep ((dispatch env I q c).run w)) ∨
        (¬ Printable env.eh j' ∧ Concludes env m c w₂ [] ((dispatch env I q c).run w)))) ∧
    Diverges (Op.sem env) (execProg I w f) w₁ ((dispatch env I q c).run w)

/-- All events and the effects of a well-formed execute request, whatever user code does: `busy`, the announcement,
the call, the output of user code, then possibly the exception it threw or the reply with the count and the abort
replies, and `idle` if the dispatch returns. -/
def ExecShape {σ : Type} (env : Env) (m : XMessage) (c : Chan) (w : World σ) (f : ExecFields)
    (x : Res Unit × World σ) : Prop :=
  ∃ b pre outs thr rep ab fin done, x.2.out = w.out ++ ([b] ++ pre ++ [.call (execCall w f)] ++ outs ++ thr ++ rep ++
      ab ++ fin) ∧
    IsStatus env c "busy" m.body.header b ∧ ExecAnnounce env m c w f pre ∧
    (∀ e ∈ outs, IsOutput env (curParent m c w .shell) e) ∧
    (thr = [] ∨ ∃ e, thr = [.threw e] ∧ rep = []) ∧
    (rep = [] ∧ ab = [] ∧ x.2.hist = w.hist ∧ x.2.shellQ = w.shellQ ∨
      ∃ r md j, rep = [r] ∧ IsReplyWith env c m.ids m.body.header (lit "execute_reply") md j r ∧
        j.find? (lit "execution_count") = some (.int (execCount w f)) ∧ x.2.hist = w.hist ++ execEntries f ∧
        (x.2.shellQ ≠ w.shellQ ∨ ab ≠ [] → ∃ s, strField j "status" "error" = some s ∧ Aborts f s)) ∧
    AbortAll env done ab ∧
    (x.1 = .ok () ∧ (∃ i, fin = [i] ∧ IsStatus env c "idle" m.body.header i) ∨ x.1 ≠ .ok () ∧ fin = []) ∧
    x.2.count = execCount w f ∧ x.2.parent = curParent m c w

/-- The counts shown to the interpreter for the non-silent executions among some events. -/
def shownCounts : List Ev → List Int
  | [] => []
  | .call (.execute n _ false _ _ _) :: r => n :: shownCounts r
  | _ :: r => shownCounts r

/-- `n` of the multiparts are well-formed non-silent execute requests. -/
inductive Tally (env : Env) : List (Multipart × Chan) → Nat → Prop
  | nil : Tally env [] 0
  | counted {q m c r n} : Accepted env.C env.J env.auth q m → Counts m → Tally env r n → Tally env ((q, c) :: r) (n + 1)
  | other {q c r n} : (∀ m, Accepted env.C env.J env.auth q m → ¬ Counts m) → Tally env r n → Tally env ((q, c) :: r) n

/-! ## Requests other than execute -/

/-- Code and cursor position of a completion request, with the documented defaults. -/
def completeFields (content : Json) : Option (Str × Int) :=
  if content.isObj then do
    let code ← strField content "code" ""
    let pos ← intField content "cursor_pos" (-1)
    return (code, pos)
  else none

/-- Code, cursor position and level of detail of an inspection request. -/
def inspectFields (content : Json) : Option (Str × Int × Int) :=
  if content.isObj then do
    let code ← strField content "code" ""
    let pos ← intField content "cursor_pos" (-1)
    let detail ← intField content "detail_level" 0
    return (code, pos, detail)
  else none

/-- The cursor position is a double that is no `int`, and the field read before it is as documented. -/
def CompleteWild (content : Json) : Prop :=
  content.isObj = true ∧ (strField content "code" "").isSome = true ∧ Wild content "cursor_pos"

/-- The cursor position, or the level of detail, is a double that is no `int`, and the fields read before it are as
documented. -/
def InspectWild (content : Json) : Prop :=
  content.isObj = true ∧ (strField content "code" "").isSome = true ∧
    (Wild content "cursor_pos" ∨ (intField content "cursor_pos" (-1)).isSome = true ∧ Wild content "detail_level")

/-- Code of an is_complete request. -/
def codeField (content : Json) : Option Str :=
  if content.isObj then strField content "code" "" else none

/-- Flag of a shutdown request. -/
def restartField (content : Json) : Option Bool :=
  if content.isObj then boolField content "restart" false else none

/-- Target name asked for by a comm_info request (empty: all). -/
def targetField (content : Json) : Option Str :=
  if content = .null then some [] else if content.isObj then strField content "target_name" "" else none

/-- The message is handled without calling user code: `busy`, then `evs`, then `idle`; apart from the remembered
request nothing else changes. -/
structure Handled {σ : Type} (env : Env) (m : XMessage) (c : Chan) (w : World σ) (evs : List Ev)
    (x : Res Unit × World σ) : Prop where
  ok : x.1 = .ok ()
  parent : x.2.parent = curParent m c w
  st : x.2.st = w.st
  count : x.2.count = w.count
  input : x.2.input = w.input
  hist : x.2.hist = w.hist
  comm : x.2.comm = w.comm
  shellQ : x.2.shellQ = w.shellQ
  stdinQ : x.2.stdinQ = w.stdinQ
  out : ∃ b i, IsStatus env c "busy" m.body.header b ∧ IsStatus env c "idle" m.body.header i ∧
    x.2.out = w.out ++ ([b] ++ evs ++ [i])

/-- The course of a kernel_info request: as `Verbatim`, with the protocol version set in the answer. -/
def KernelInfoCourse {σ : Type} (env : Env) (I : Interp σ) (q : Multipart) (m : XMessage) (c : Chan) (w : World σ) :
    Prop :=
  ∃ w₁, AtCall env m c w w.count [] .kernelInfo w₁ ∧
    (∀ j w₂, (I.kernelInfo.exec (Op.sem env)).run w₁ = (.ok j, w₂) → (j.isObj = true ∨ j = .null) →
      ∃ j', WithMember j "protocol_version" (.str (lit "5.3")) j' ∧ (Printable env.eh j → Printable env.eh j') ∧
        (((env.eh = .strict → JsonUtf8 j') ∧
          ∃ rep, IsReplyWith env c m.ids m.body.header (lit "kernel_info_reply") (.obj []) j' rep ∧
            Concludes env m c w₂ [rep] ((dispatch env I q c).run w)) ∨
        (¬ Printable env.eh j' ∧ Concludes env m c w₂ [] ((dispatch env I q c).run w)))) ∧
    (∀ j w₂, (I.kernelInfo.exec (Op.sem env)).run w₁ = (.ok j, w₂) → ¬ (j.isObj = true ∨ j = .null) →
        Concludes env m c w₂ [] ((dispatch env I q c).run w)) ∧
    (∀ e w₂, (I.kernelInfo.exec (Op.sem env)).run w₁ = (.exc e, w₂) → e.isStd = true →
        Concludes env m c w₂ [.threw e] ((dispatch env I q c).run w)) ∧
    (∀ e w₂, (I.kernelInfo.exec (Op.sem env)).run w₁ = (.exc e, w₂) → e.isStd = false →
        (dispatch env I q c).run w = (.exc e, { w₂ with out := w₂.out ++ [.threw e] })) ∧
    Diverges (Op.sem env) I.kernelInfo w₁ ((dispatch env I q c).run w)

/-- The course of a shutdown request with the given flag: the hook, then (if it returns) the order to stop, the
notification, the reply, and `idle`. -/
def ShutdownCourse {σ : Type} (env : Env) (I : Interp σ) (q : Multipart) (m : XMessage) (c : Chan) (w : World σ)
    (restart : Bool) : Prop :=
  ∃ w₁, AtCall env m c w w.count [] .shutdown w₁ ∧
    (∀ w₂, (I.shutdown.exec (Op.sem env)).run w₁ = (.ok (), w₂) →
      ∃ n rep, IsPub env .control (lit "shutdown") (curParent m c w .control).header (.obj [])
          (.obj [(lit "restart", .bool restart)]) [] n ∧
        IsReplyWith env c m.ids m.body.header (lit "shutdown_reply") (.obj []) (.obj [(lit "restart", .bool restart)]) rep ∧
        Concludes env m c w₂ [.stop, n, rep] ((dispatch env I q c).run w)) ∧
    (∀ e w₂, (I.shutdown.exec (Op.sem env)).run w₁ = (.exc e, w₂) → e.isStd = true →
        Concludes env m c w₂ [.threw e] ((dispatch env I q c).run w)) ∧
    (∀ e w₂, (I.shutdown.exec (Op.sem env)).run w₁ = (.exc e, w₂) → e.isStd = false →
        (dispatch env I q c).run w = (.exc e, { w₂ with out := w₂.out ++ [.threw e] })) ∧
    Diverges (Op.sem env) I.shutdown w₁ ((dispatch env I q c).run w)

/-- The name of the target of the comm registered under an identifier; `none` when there is no such comm. -/
def registeredTarget (s : Comms) (id : Str) : Option Str := do
  let a ← alGet id s.reg
  let c ← alGet a s.objs
  let n ← alGet c.target s.nodes
  return n.name

/-- The registry has one entry per identifier, and every entry leads to a live comm of a live target. -/
def RegistryLive (s : Comms) : Prop :=
  (s.reg.map (·.1)).Nodup ∧ ∀ id a, (id, a) ∈ s.reg → ∃ c n, alGet a s.objs = some c ∧ alGet c.target s.nodes = some n

/-- `j` lists the registered comms with the names of their targets, only those of target `wanted` unless that is
empty. -/
def ListsComms (s : Comms) (wanted : Str) (j : Json) : Prop :=
  j.isObj = true ∧ ∀ id, j.find? id = match registeredTarget s id with
    | none => none
    | some n => if wanted = [] ∨ n = wanted then some (.obj [(lit "target_name", .str n)]) else none

/-- Called in any state that follows `w` directly, the user code `p` returns an answer satisfying `P`. -/
def Returns {σ Ω α : Type} (env : Env) (m : XMessage) (c : Chan) (w : World σ) (n : Int) (k : Call)
    (sem : Ω → K (World σ) Val) (p : Prog σ Ω α) (P : α → Prop) : Prop :=
  ∀ pre w₁, AtCall env m c w n pre k w₁ → ∃ a w₂, (p.exec sem).run w₁ = (.ok a, w₂) ∧ P a

/-- The fields of the request `m` have the documented types, user code returns what it should, and nothing undefined
is in the way. -/
def Served {σ : Type} (env : Env) (I : Interp σ) (m : XMessage) (c : Chan) (w : World σ) : Req → Prop
  | .execute => ∃ f, execFields m.body.content = some f ∧ InInt w.count ∧ InInt (w.count + 1) ∧
      (∀ q ∈ w.shellQ, ¬ Undefined env.J env.auth q) ∧
      Returns env m c w (execCount w f) (execCall w f) (Op.sem env) (execProg I w f) fun j =>
        j.isObj = true ∧ Printable env.eh j ∧ ∃ s, strField j "status" "error" = some s
  | .complete => ∃ code pos, completeFields m.body.content = some (code, pos) ∧
      Returns env m c w w.count (.complete code pos) (Op.sem env) (I.complete code pos) (Printable env.eh)
  | .inspect => ∃ code pos detail, inspectFields m.body.content = some (code, pos, detail) ∧
      Returns env m c w w.count (.inspect code pos detail) (Op.sem env) (I.inspect code pos detail) (Printable env.eh)
  | .isComplete => ∃ code, codeField m.body.content = some code ∧
      Returns env m c w w.count (.isComplete code) (Op.sem env) (I.isComplete code) (Printable env.eh)
  | .history => ∃ j, historyRequest env.H w.hist m.body.content = .ok j ∧ Printable env.eh j
  | .commInfo => (∃ wanted, targetField m.body.content = some wanted) ∧ RegistryLive w.comm ∧
      (env.eh = .strict → ∀ id n, registeredTarget w.comm id = some n → Utf8 id ∧ Utf8 n)
  | .kernelInfo => Returns env m c w w.count .kernelInfo (Op.sem env) I.kernelInfo fun j =>
      j.isObj = true ∧ Printable env.eh j
  | .shutdown => (∃ b, restartField m.body.content = some b) ∧
      Returns env m c w w.count .shutdown (Op.sem env) I.shutdown fun _ => True
  | .interrupt => True
  | .debug => ∃ d, I.debug = some d ∧ Returns env m c w w.count (.debug m.body.header m.body.content) (DOp.sem env I)
      (d m.body.header m.body.content) (Printable env.eh)
  | .commOpen | .commClose | .commMsg => False

/-! ## Assumptions -/

/-- Texts supplied by the environment are UTF-8 if the strict error handler is used (otherwise even the
status notifications cannot be printed), the JSON library is lawful, logging does not fail, and the history manager throws nothing but
`std::exception`s. -/
structure Sane (env : Env) : Prop where
  codec : LawfulCodec env.J
  user : env.eh = .strict → Utf8 env.user
  session : env.eh = .strict → Utf8 env.session
  now : env.eh = .strict → ∀ n, Utf8 (env.now n)
  log : ∀ e, env.log e = .ok ()
  manager : env.H.StdOnly

/-- The history manager is the default one, with a lawful library for regular expressions. -/
class Stock (env : Env) : Prop where
  memory : ∃ R, LawfulRegex R ∧ env.H = inMemory R

/-- A JSON value as parsed from the wire. -/
def Parsed (j : Json) : Prop := j.canon = true ∧ JsonUtf8 j

/-- The remembered parent headers are JSON values that came from the wire (as they are in every reachable
state). -/
def ParentsOk {σ : Type} (w : World σ) : Prop := ∀ c, Parsed (w.parent c).header

end Xeus.Spec
