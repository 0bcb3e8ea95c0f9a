import Verif.Kernels.SessionSpec
import Verif.Kernels.QuerySpec
import Verif.Kernel.CommSpec

/-!
# Everything the kernels that come with the library do: specification

All messages on both channels, of whatever type and content.  What is done depends on the messages only; the state is the number of
executions, the history, and the headers of the latest messages of the two channels.
-/

namespace Xeus.Spec

open Xeus

/-! ## Requests for the history -/

/-- The entries found by a search, of which the last `n` are listed. -/
def Found (h : Hist) (sel : HEntry → Bool) (output unique : Bool) (rows : List (List Str)) : Prop :=
  if unique then Collapsed ((h.filter sel).map (columns output)) rows else rows = (h.filter sel).map (columns output)

/-- The answer to a request for the history `h`; `none` for no answer. -/
inductive HistAnswer (h : Hist) (c : Json) : Option Json → Prop
  | tail (n : Int) (raw output : Bool) : c.isObj = true → strField c "hist_access_type" "tail" = some (lit "tail") →
      intField c "n" 10 = some n → boolField c "raw" true = some raw → boolField c "output" false = some output → 0 ≤ n →
      HistAnswer h c (some (okReply ((lastN n.toNat h).map (columns output))))
  | range (session start stop : Int) (raw output : Bool) : c.isObj = true → strField c "hist_access_type" "tail" = some (lit "range") →
      intField c "session" 0 = some session → intField c "start" 1 = some start → intField c "stop" 10 = some stop →
      boolField c "raw" true = some raw → boolField c "output" false = some output → 0 ≤ start → start ≤ stop → start ≤ h.length →
      HistAnswer h c (some (okReply (((h.take stop.toNat).drop start.toNat).map (columns output))))
  | outside (session start stop : Int) (raw output : Bool) (j : Json) : c.isObj = true →
      strField c "hist_access_type" "tail" = some (lit "range") → intField c "session" 0 = some session → intField c "start" 1 = some start →
      intField c "stop" 10 = some stop → boolField c "raw" true = some raw → boolField c "output" false = some output →
      stop < start ∨ (h.length : Int) < start → IsErrorReply j → HistAnswer h c (some j)
  | search (p : Str) (n : Int) (raw output unique : Bool) (sel : HEntry → Bool) (rows : List (List Str)) : c.isObj = true →
      strField c "hist_access_type" "tail" = some (lit "search") → strField c "pattern" "*" = some p → boolField c "raw" true = some raw →
      boolField c "output" false = some output → intField c "n" 10 = some n → boolField c "unique" false = some unique → 0 ≤ n →
      (92 ∉ p → 0 ∉ p → ∀ e, sel e = true ↔ GlobIn p (e.input.takeWhile (· ≠ 0))) → Found h sel output unique rows →
      HistAnswer h c (some (okReply (lastN n.toNat rows)))
  | noPattern (p : Str) : c.isObj = true → strField c "hist_access_type" "tail" = some (lit "search") →
      strField c "pattern" "*" = some p → 92 ∈ p ∨ 0 ∈ p → HistAnswer h c none
  | other (a : Str) : c.isObj = true → strField c "hist_access_type" "tail" = some a → a ≠ lit "tail" → a ≠ lit "search" → a ≠ lit "range" →
      HistAnswer h c (some .null)
  | bad : HistBad c → HistAnswer h c none

/-! ## Kernels -/

/-- What distinguishes the interpreters: what is published and answered for an execution (number, code), and the answers to the other
requests; the names of its comm targets. -/
structure Persona where
  says : Int → Str → List (String × Json)
  answers : Int → Str → Json → Prop
  completes : Str → Int → Json → Prop
  inspects : Str → Json → Prop
  judges : Str → Json → Prop
  info : Json → Prop
  targets : List Str

/-- The example kernel. -/
def demoPersona : Persona :=
  ⟨fun n _ => demoSays n, fun n _ => Members [("status", txt "ok"), ("execution_count", .int n)], DemoCompletes, DemoInspects,
    fun _ => Members [("status", txt "complete")], DemoInfo, []⟩

/-- The test kernel. -/
def testPersona : Persona := ⟨testSays, TestAnswers, fun _ _ => TestCompletes, fun _ => TestInspects, TestIsComplete, TestInfo,
  [lit "test_target"]⟩

/-- A message that nothing is done for: of an unknown type, or with a field that is not of the documented type, or for a debugger that is
not there. -/
def Malformed (m : XMessage) : Prop :=
  (∃ t, typeOf m.body.header = some t ∧ ∀ r, t ≠ lit (requestType r)) ∨
  (IsReq m .execute ∧ execFields m.body.content = none) ∨ (IsReq m .complete ∧ completeFields m.body.content = none) ∨
  (IsReq m .inspect ∧ inspectFields m.body.content = none) ∨ (IsReq m .isComplete ∧ codeField m.body.content = none) ∨
  (IsReq m .commInfo ∧ targetField m.body.content = none) ∨ (IsReq m .shutdown ∧ restartField m.body.content = none) ∨ IsReq m .debug

/-- What is done for a message of channel `c` between `busy` and `idle`, after `n` executions, with history `h`, `lat` being the headers of
the latest messages of the channels, this one included; and the number of executions and the history afterwards. -/
inductive Conduct (P : Persona) (env : Env) (n : Int) (h : Hist) (lat : Chan → Json) (c : Chan) (m : XMessage) : List Ev → Int → Hist → Prop
  | execute (f : ExecFields) (pre said : List Ev) (md j : Json) (rep : Ev) : IsReq m .execute → execFields m.body.content = some f →
      (if f.silent then pre = [] else ∃ e, pre = [e] ∧ IsPub env .shell (lit "execute_input") (lat .shell) (.obj [])
        (.obj [(lit "code", .str f.code), (lit "execution_count", .int (nextCount n f))]) [] e) →
      Says env (lat .shell) (P.says (nextCount n f) f.code) said → P.answers (nextCount n f) f.code j →
      IsReplyWith env c m.ids m.body.header (lit "execute_reply") md j rep →
      Conduct P env n h lat c m
        (pre ++ [.call (.execute (nextCount n f) f.code f.silent (f.store && !f.silent) f.exprs f.allow)] ++ said ++ [rep])
        (nextCount n f) (h ++ execEntries f)
  | complete (code : Str) (pos : Int) (md j : Json) (rep : Ev) : IsReq m .complete → completeFields m.body.content = some (code, pos) →
      P.completes code pos j → IsReplyWith env c m.ids m.body.header (lit "complete_reply") md j rep →
      Conduct P env n h lat c m [.call (.complete code pos), rep] n h
  | inspect (code : Str) (pos detail : Int) (md j : Json) (rep : Ev) : IsReq m .inspect →
      inspectFields m.body.content = some (code, pos, detail) → P.inspects code j →
      IsReplyWith env c m.ids m.body.header (lit "inspect_reply") md j rep →
      Conduct P env n h lat c m [.call (.inspect code pos detail), rep] n h
  | isComplete (code : Str) (md j : Json) (rep : Ev) : IsReq m .isComplete → codeField m.body.content = some code → P.judges code j →
      IsReplyWith env c m.ids m.body.header (lit "is_complete_reply") md j rep →
      Conduct P env n h lat c m [.call (.isComplete code), rep] n h
  | info (md j : Json) (rep : Ev) : IsReq m .kernelInfo → P.info j →
      IsReplyWith env c m.ids m.body.header (lit "kernel_info_reply") md j rep → Conduct P env n h lat c m [.call .kernelInfo, rep] n h
  | history (j : Json) (rep : Ev) : IsReq m .history → HistAnswer h m.body.content (some j) →
      IsReplyWith env c m.ids m.body.header (lit "history_reply") (.obj []) j rep → Conduct P env n h lat c m [rep] n h
  | noHistory : IsReq m .history → HistAnswer h m.body.content none → Conduct P env n h lat c m [] n h
  | commInfo (wanted : Str) (rep : Ev) : IsReq m .commInfo → targetField m.body.content = some wanted →
      IsReplyWith env c m.ids m.body.header (lit "comm_info_reply") (.obj []) (.obj [(lit "comms", .obj []), (lit "status", txt "ok")]) rep →
      Conduct P env n h lat c m [rep] n h
  | commOpen : IsReq m .commOpen → NotText m.body.content "target_name" ∨ (∃ s, m.body.content.find? (lit "target_name") = some (.str s) ∧
      (s ∉ P.targets ∨ NotText m.body.content "comm_id")) → Conduct P env n h lat c m [] n h
  | comm (r : Req) : IsReq m r → r = .commMsg ∨ r = .commClose →
      NotText m.body.content "comm_id" ∨ (∃ s, m.body.content.find? (lit "comm_id") = some (.str s) ∧ s.length ≤ 55) →
      Conduct P env n h lat c m [] n h
  | shutdown (restart : Bool) (note rep : Ev) : IsReq m .shutdown → restartField m.body.content = some restart →
      IsPub env .control (lit "shutdown") (lat .control) (.obj []) (.obj [(lit "restart", .bool restart)]) [] note →
      IsReplyWith env c m.ids m.body.header (lit "shutdown_reply") (.obj []) (.obj [(lit "restart", .bool restart)]) rep →
      Conduct P env n h lat c m [.call .shutdown, .stop, note, rep] n h
  | interrupt (note rep : Ev) : IsReq m .interrupt → IsPub env .control (lit "interrupt") (lat .control) (.obj []) (.obj []) [] note →
      IsReplyWith env c m.ids m.body.header (lit "interrupt_reply") (.obj []) (.obj []) rep → Conduct P env n h lat c m [note, rep] n h
  | malformed : Malformed m → Conduct P env n h lat c m [] n h

/-- The latest headers after a message of channel `c`. -/
def newest (lat : Chan → Json) (c : Chan) (m : XMessage) : Chan → Json := fun c' => if c' = c then m.body.header else lat c'

/-- Everything: the messages in the order they were handled, all that was done for them, the number of executions, the history, and the
latest headers.  After a stop nothing is handled. -/
inductive Everything (P : Persona) (env : Env) : List (Chan × Multipart) → List Ev → Int → Hist → (Chan → Json) → Prop
  | nil : Everything P env [] [] 0 [] fun _ => .obj []
  | refused {l es n h lat} (c : Chan) (q : Multipart) : Everything P env l es n h lat → Ev.stop ∉ es → Refused env.C env.J env.auth q →
      Everything P env (l ++ [(c, q)]) es n h lat
  | accepted {l es n h lat} (c : Chan) (q : Multipart) (m : XMessage) (b : Ev) (evs : List Ev) (i : Ev) (n' : Int) (h' : Hist) :
      Everything P env l es n h lat → Ev.stop ∉ es → Accepted env.C env.J env.auth q m → IsStatus env c "busy" m.body.header b →
      Conduct P env n h (newest lat c m) c m evs n' h' → IsStatus env c "idle" m.body.header i →
      Everything P env (l ++ [(c, q)]) (es ++ ([b] ++ evs ++ [i])) n' h' (newest lat c m)

end Xeus.Spec
