import Verif.Kernels.DemoSpec

/-!
# Sessions with the test kernel: specification

What a client of the test kernel sees, without reference to the state of the kernel: only the number of executions so far.
-/

namespace Xeus.Spec

open Xeus

/-- A request of the kinds the integration tests send, with documented fields. -/
def TestAsks (m : XMessage) : Prop :=
  (IsReq m .execute ∧ ∃ f, execFields m.body.content = some f) ∨ (IsReq m .complete ∧ ∃ x, completeFields m.body.content = some x) ∨
  (IsReq m .inspect ∧ ∃ x, inspectFields m.body.content = some x) ∨ (IsReq m .isComplete ∧ ∃ x, codeField m.body.content = some x) ∨
  IsReq m .kernelInfo

/-- The number of the next execution. -/
def nextCount (n : Int) (f : ExecFields) : Int := if f.silent then n else n + 1

/-- The answer to a request that nothing is published for: `busy`, one call, one reply, `idle`. -/
def TestTurn (env : Env) (m : XMessage) (k : Call) (rt : String) (P : Json → Prop) (es : List Ev) : Prop :=
  ∃ b md j rep i, IsStatus env .shell "busy" m.body.header b ∧ P j ∧ IsReplyWith env .shell m.ids m.body.header (lit rt) md j rep ∧
    IsStatus env .shell "idle" m.body.header i ∧ es = [b, .call k, rep, i]

/-- What the test kernel does for an execute request, `n` being the number of this execution: `busy`, the announcement, one call, what
belongs to the code, one reply, `idle`. -/
def TestRun (env : Env) (m : XMessage) (f : ExecFields) (n : Int) (es : List Ev) : Prop :=
  ∃ b pre said md j rep i, IsStatus env .shell "busy" m.body.header b ∧
    (if f.silent then pre = [] else ∃ e, pre = [e] ∧ IsPub env .shell (lit "execute_input") m.body.header (.obj [])
      (.obj [(lit "code", .str f.code), (lit "execution_count", .int n)]) [] e) ∧
    Says env m.body.header (testSays n f.code) said ∧ TestAnswers n f.code j ∧
    IsReplyWith env .shell m.ids m.body.header (lit "execute_reply") md j rep ∧ IsStatus env .shell "idle" m.body.header i ∧
    es = [b] ++ pre ++ [.call (.execute n f.code f.silent (f.store && !f.silent) f.exprs f.allow)] ++ said ++ [rep, i]

/-- A session: the messages received on the shell channel, what was done for them, the number of executions and what was added to the
history. -/
inductive TestSession (env : Env) : List Multipart → List Ev → Int → Hist → Prop
  | nil : TestSession env [] [] 0 []
  | refused {qs es n h} (q : Multipart) : TestSession env qs es n h → Refused env.C env.J env.auth q → TestSession env (qs ++ [q]) es n h
  | execute {qs es n h} (q : Multipart) (m : XMessage) (f : ExecFields) (blk : List Ev) : TestSession env qs es n h →
      Accepted env.C env.J env.auth q m → IsReq m .execute → execFields m.body.content = some f → TestRun env m f (nextCount n f) blk →
      TestSession env (qs ++ [q]) (es ++ blk) (nextCount n f) (h ++ execEntries f)
  | complete {qs es n h} (q : Multipart) (m : XMessage) (code : Str) (pos : Int) (blk : List Ev) : TestSession env qs es n h →
      Accepted env.C env.J env.auth q m → IsReq m .complete → completeFields m.body.content = some (code, pos) →
      TestTurn env m (.complete code pos) "complete_reply" TestCompletes blk → TestSession env (qs ++ [q]) (es ++ blk) n h
  | inspect {qs es n h} (q : Multipart) (m : XMessage) (code : Str) (pos detail : Int) (blk : List Ev) : TestSession env qs es n h →
      Accepted env.C env.J env.auth q m → IsReq m .inspect → inspectFields m.body.content = some (code, pos, detail) →
      TestTurn env m (.inspect code pos detail) "inspect_reply" TestInspects blk → TestSession env (qs ++ [q]) (es ++ blk) n h
  | isComplete {qs es n h} (q : Multipart) (m : XMessage) (code : Str) (blk : List Ev) : TestSession env qs es n h →
      Accepted env.C env.J env.auth q m → IsReq m .isComplete → codeField m.body.content = some code →
      TestTurn env m (.isComplete code) "is_complete_reply" (TestIsComplete code) blk → TestSession env (qs ++ [q]) (es ++ blk) n h
  | info {qs es n h} (q : Multipart) (m : XMessage) (blk : List Ev) : TestSession env qs es n h →
      Accepted env.C env.J env.auth q m → IsReq m .kernelInfo → TestTurn env m .kernelInfo "kernel_info_reply" TestInfo blk →
      TestSession env (qs ++ [q]) (es ++ blk) n h

end Xeus.Spec
