import Verif.Kernels.Demo

/-!
# The kernels that come with the library: the property C95

Only the property theorems, facts about the two interpreters, and the `example`s that instantiate their hypotheses.
-/

namespace Xeus

open Spec Kernels

/-! ## The interpreters -/

/-- What the example kernel publishes. -/
def demoPubs (n : Int) : List PubOp :=
  [.execResult n (filled [("text/plain", text "Hello World !!")]) (.obj []), .execError (lit "TypeError") (lit "123") [lit "!@#$", lit "*(*"]]

theorem printable_execResult {eh : ErrH} {n : Int} (hn : InInt n) {d md : Json} (hd : Printable eh d) (hm : Printable eh md) :
    Printable eh (pubContent (.execResult n d md)) := by
  rw [← pubOp_content]
  exact printable_put (printable_put (printable_put ⟨rfl, fun _ => .null⟩ (utf8_lit (by decide)) (printable_int eh hn)) (utf8_lit (by decide)) hd)
    (utf8_lit (by decide)) hm

theorem demoPubs_printable {eh : ErrH} {n : Int} (hn : InInt n) : ∀ p ∈ demoPubs n, Printable eh (pubContent p) := by
  intro p hp
  simp only [demoPubs, List.mem_cons, List.not_mem_nil, or_false] at hp
  rcases hp with rfl | rfl
  · exact printable_execResult hn (printable_closed eh (by decide +kernel)) (printable_closed eh (by decide +kernel))
  · exact printable_closed eh (by decide +kernel)

theorem demoComplete_printable {eh : ErrH} {code : Str} {pos : Int} (h : InInt pos) : Printable eh (demoComplete code pos) := by
  unfold demoComplete
  split
  all_goals
    refine printable_filled fun m hm => ?_
    simp only [List.mem_cons, List.not_mem_nil, or_false] at hm
    rcases hm with rfl | rfl | rfl | rfl
    · exact ⟨utf8_lit (by dsimp only; decide), printable_closed eh (by decide +kernel)⟩
    · exact ⟨utf8_lit (by dsimp only; decide), printable_closed eh (by decide +kernel)⟩
    · exact ⟨utf8_lit (by dsimp only; decide), by first | exact printable_int eh h | exact printable_closed eh (by decide +kernel)⟩
    · exact ⟨utf8_lit (by dsimp only; decide), printable_int eh h⟩

theorem demoInspect_printable {eh : ErrH} {code : Str} : Printable eh (demoInspect code) := by
  unfold demoInspect
  split <;> exact printable_closed eh (by decide +kernel)

/-- What the test kernel publishes. -/
def testPubs (n : Int) (code : Str) : List PubOp :=
  (if code = lit "hello, world" then [.stream (lit "stdout") code] else []) ++
  (if code = lit "error" then [.stream (lit "stderr") code] else []) ++
  (if code = lit "?" then [] else [.execResult n (filled [("text/plain", .str code)]) .null])

/-- What it answers. -/
def testReply (code : Str) : Json :=
  if code = lit "?" then pagerAnswer else filled [("status", text "ok"), ("payload", .arr []), ("user_expressions", .obj [])]

theorem testExecute_script (n : Int) (code : Str) : testExecute n code = script (testPubs n code) (testReply code) := by
  unfold testExecute testErr testAnswer testPubs testReply
  by_cases h1 : code = lit "hello, world"
  · subst h1
    rw [if_pos rfl, if_neg (by decide), if_neg (by decide), if_pos rfl, if_neg (by decide), if_neg (by decide), if_neg (by decide)]
    rfl
  · by_cases h2 : code = lit "error"
    · subst h2
      rw [if_neg h1, if_pos rfl, if_neg (by decide), if_neg h1, if_pos rfl, if_neg (by decide), if_neg (by decide)]
      rfl
    · by_cases h3 : code = lit "?"
      · subst h3
        rw [if_neg h1, if_neg h2, if_pos rfl, if_neg h1, if_neg h2, if_pos rfl, if_pos rfl]
        rfl
      · rw [if_neg h1, if_neg h2, if_neg h3, if_neg h1, if_neg h2, if_neg h3, if_neg h3]
        rfl

theorem testPubs_printable {eh : ErrH} {n : Int} (hn : InInt n) {code : Str} (hc : Utf8 code) :
    ∀ p ∈ testPubs n code, Printable eh (pubContent p) := by
  intro p hp
  have hstream : ∀ s : String, (lit s).all (· ≤ 0x7F) = true → Printable eh (pubContent (.stream (lit s) code)) := fun s hs => by
    rw [← pubOp_content]
    exact printable_put (printable_put ⟨rfl, fun _ => .null⟩ (utf8_lit (by decide)) (printable_str eh (utf8_lit hs)))
      (utf8_lit (by decide)) (printable_str eh hc)
  simp only [testPubs, List.mem_append] at hp
  rcases hp with (hp | hp) | hp <;> split at hp <;> simp only [List.mem_cons, List.not_mem_nil, or_false] at hp <;> subst hp
  · exact hstream _ (by decide)
  · exact hstream _ (by decide)
  · refine printable_execResult hn (printable_filled fun m hm => ?_) ⟨rfl, fun _ => .null⟩
    simp only [List.mem_cons, List.not_mem_nil, or_false] at hm
    subst hm
    exact ⟨utf8_lit (by dsimp only; decide), printable_str eh hc⟩

theorem testReply_facts (eh : ErrH) (code : Str) : (testReply code).isObj = true ∧ Printable eh (testReply code) ∧
    strField (testReply code) "status" "error" = some (lit "ok") := by
  unfold testReply
  split
  · exact ⟨by decide +kernel, printable_closed eh (by decide +kernel), by decide +kernel⟩
  · exact ⟨by decide +kernel, printable_closed eh (by decide +kernel), by decide +kernel⟩

theorem testIsComplete_printable {eh : ErrH} {code : Str} (hc : Utf8 code) : Printable eh (testIsComplete code) := by
  have h := printable_put (eh := eh) (j := .null) ⟨rfl, fun _ => .null⟩ (k := lit "status") (utf8_lit (by decide)) (printable_str eh hc)
  unfold testIsComplete
  simp only
  split
  · exact printable_put h (utf8_lit (by decide)) (printable_closed eh (by decide +kernel))
  · exact h

/-! ## C95 -/

/-- C95: the example interpreter never throws, whatever it is asked; its answers can be sent; and it reports no error. -/
theorem C95_demo_safe (eh : ErrH) : Plain eh demo ∧ Answers eh demo ∧ Cheerful demo := by
  refine ⟨⟨fun n _ _ _ _ _ hn _ _ => script_mild (demoPubs_printable hn), fun _ _ _ _ => trivial, fun _ _ _ _ _ _ => trivial,
    fun _ _ => trivial, trivial, trivial, rfl⟩, ⟨fun n _ _ _ _ _ _ _ => ?_, fun _ _ _ hp => demoComplete_printable hp,
    fun _ _ _ _ _ _ => demoInspect_printable, fun _ _ => printable_closed eh (by decide +kernel), ?_⟩, fun n _ _ _ _ _ _ _ => ?_⟩
  · exact script_yields (ps := demoPubs n) ⟨by decide +kernel, printable_closed eh (by decide +kernel), lit "ok", by decide +kernel⟩
  · exact ⟨by decide +kernel, printable_closed eh (by decide +kernel)⟩
  · exact script_yields (ps := demoPubs n) (by decide +kernel)

/-- C95: neither does the interpreter of the test kernel. -/
theorem C95_test_safe (eh : ErrH) : Plain eh testing ∧ Answers eh testing ∧ Cheerful testing := by
  refine ⟨⟨fun n code _ _ _ _ hn hc _ => ?_, fun _ _ _ _ => trivial, fun _ _ _ _ _ _ => trivial,
    fun _ _ => trivial, trivial, trivial, rfl⟩, ⟨fun n code _ _ _ _ _ _ => ?_, fun _ _ _ hp => printable_closed eh (by decide +kernel),
    fun _ _ _ _ _ _ => printable_closed eh (by decide +kernel), fun _ hc => testIsComplete_printable hc, ?_⟩,
    fun n code _ _ _ _ _ _ => ?_⟩
  · show Mild eh False (testExecute n code)
    rw [testExecute_script]
    exact script_mild (testPubs_printable hn hc)
  · show Yields _ (testExecute n code)
    rw [testExecute_script]
    obtain ⟨h1, h2, h3⟩ := testReply_facts eh code
    exact script_yields ⟨h1, h2, _, h3⟩
  · exact ⟨by decide +kernel, printable_closed eh (by decide +kernel)⟩
  · show Yields _ (testExecute n code)
    rw [testExecute_script]
    refine script_yields ?_
    rw [(testReply_facts eh code).2.2]
    decide

section

variable (env : Env) (hs : Sane env) (q : Multipart) (m : XMessage) (c : Chan) (ha : Accepted env.C env.J env.auth q m) (w : World Unit)

include hs ha

/-- C95: the whole course of an execute request to the example kernel. -/
theorem C95_demo_execute (hr : IsReq m .execute) (f : ExecFields) (hf : execFields m.body.content = some f) (hp : ParentsOk w)
    (hc : InInt w.count) (hc' : f.silent = false → InInt (w.count + 1)) :
    ∃ pre, ExecAnnounce env m c w f pre ∧ Talks env m c w pre (execCall w f) (demoSays (execCount w f)) "execute_reply"
      (Members [("status", txt "ok"), ("execution_count", .int (execCount w f))]) (execCount w f) (execEntries f)
      ((dispatch env demo q c).run w) := by
  have hn : InInt (execCount w f) := by
    unfold execCount
    cases h : f.silent with
    | true => exact hc
    | false => exact hc' h
  exact script_execute (I := demo) (ps := demoPubs (execCount w f)) (j := filled [("status", text "ok")]) hs ha hr hf hp hc hc' rfl
    (demoPubs_printable hn) (by decide +kernel) (printable_closed _ (by decide +kernel)) (s := lit "ok") (by decide +kernel) (by decide)
    (members_filled (by simp) (by decide +kernel)) (by decide +kernel)

omit hs ha in
/-- A cell. -/
example : ∃ q f, Accepted sampleEnv.C sampleEnv.J sampleEnv.auth q (sampleReq "execute_request" (.obj [(lit "code", .str (lit "1 + 1"))])) ∧
    IsReq (sampleReq "execute_request" (.obj [(lit "code", .str (lit "1 + 1"))])) .execute ∧
    execFields (sampleReq "execute_request" (.obj [(lit "code", .str (lit "1 + 1"))])).body.content = some f ∧
    f.code = lit "1 + 1" ∧ ParentsOk (World.initial () [] []) ∧ InInt ((World.initial () [] []).count + 1) := by
  obtain ⟨q, hq⟩ := sampleReq_accepted "execute_request" (.obj [(lit "code", .str (lit "1 + 1"))]) (by decide) (by decide) (by decide)
  exact ⟨q, _, hq, by unfold IsReq; decide +kernel, rfl, rfl, fun _ => ⟨rfl, (jsonUtf8_iff _).2 rfl⟩, by decide⟩

/-- C95: requests for completion to the example kernel. -/
theorem C95_demo_complete (hr : IsReq m .complete) (code : Str) (pos : Int) (hf : completeFields m.body.content = some (code, pos)) :
    Talks env m c w [] (.complete code pos) [] "complete_reply" (DemoCompletes code pos) w.count [] ((dispatch env demo q c).run w) := by
  have hpos : InInt pos := by
    have hf' := hf
    simp only [completeFields, Option.ite_none_right_eq_some, Option.bind_eq_bind, Option.bind_eq_some_iff, Option.pure_def,
      Option.some.injEq, Prod.mk.injEq] at hf'
    obtain ⟨_, _, h1, _, h2, rfl, rfl⟩ := hf'
    exact intField_range (by decide) h2
  refine ret_verbatim (C24_complete env hs demo q m c code pos ha hr hf w).1 rfl (demoComplete_printable hpos) ?_
  unfold DemoCompletes demoComplete
  have : code.headD 0 = 72 ↔ code.head? = some 72 := by
    cases code <;> simp
  by_cases h : code.head? = some 72
  · rw [if_pos (this.2 h)]
    simp only [if_pos h]
    exact members_filled (by simp) (by simp only [List.map]; decide +kernel)
  · rw [if_neg fun h' => h (this.1 h')]
    simp only [if_neg h]
    exact members_filled (by simp) (by simp only [List.map]; decide +kernel)

omit hs ha in
/-- A word to complete. -/
example : ∃ q, Accepted sampleEnv.C sampleEnv.J sampleEnv.auth q (sampleReq "complete_request" (.obj [(lit "code", .str (lit "He")), (lit "cursor_pos", .int 2)])) ∧
    IsReq (sampleReq "complete_request" (.obj [(lit "code", .str (lit "He")), (lit "cursor_pos", .int 2)])) .complete ∧
    completeFields (sampleReq "complete_request" (.obj [(lit "code", .str (lit "He")), (lit "cursor_pos", .int 2)])).body.content = some (lit "He", 2) := by
  obtain ⟨q, hq⟩ := sampleReq_accepted "complete_request" (.obj [(lit "code", .str (lit "He")), (lit "cursor_pos", .int 2)]) (by decide) (by decide) (by decide)
  exact ⟨q, hq, by unfold IsReq; decide +kernel, by decide +kernel⟩

/-- C95: requests for inspection to the example kernel. -/
theorem C95_demo_inspect (hr : IsReq m .inspect) (code : Str) (pos detail : Int)
    (hf : inspectFields m.body.content = some (code, pos, detail)) :
    Talks env m c w [] (.inspect code pos detail) [] "inspect_reply" (DemoInspects code) w.count [] ((dispatch env demo q c).run w) := by
  refine ret_verbatim (C24_inspect env hs demo q m c code pos detail ha hr hf w).1 rfl demoInspect_printable ?_
  unfold DemoInspects demoInspect
  split
  · exact members_filled (by simp) (by decide +kernel)
  · exact members_filled (by simp) (by decide +kernel)

omit hs ha in
/-- A word to inspect. -/
example : ∃ q, Accepted sampleEnv.C sampleEnv.J sampleEnv.auth q (sampleReq "inspect_request" (.obj [(lit "code", .str (lit "print")), (lit "cursor_pos", .int 2), (lit "detail_level", .int 1)])) ∧
    IsReq (sampleReq "inspect_request" (.obj [(lit "code", .str (lit "print")), (lit "cursor_pos", .int 2), (lit "detail_level", .int 1)])) .inspect ∧
    inspectFields (sampleReq "inspect_request" (.obj [(lit "code", .str (lit "print")), (lit "cursor_pos", .int 2), (lit "detail_level", .int 1)])).body.content = some (lit "print", 2, 1) := by
  obtain ⟨q, hq⟩ := sampleReq_accepted "inspect_request" (.obj [(lit "code", .str (lit "print")), (lit "cursor_pos", .int 2), (lit "detail_level", .int 1)]) (by decide) (by decide) (by decide)
  exact ⟨q, hq, by unfold IsReq; decide +kernel, by decide +kernel⟩

/-- C95: to the example kernel all code is complete. -/
theorem C95_demo_is_complete (hr : IsReq m .isComplete) (code : Str) (hf : codeField m.body.content = some code) :
    Talks env m c w [] (.isComplete code) [] "is_complete_reply" (Members [("status", txt "complete")]) w.count []
      ((dispatch env demo q c).run w) :=
  ret_verbatim (C24_is_complete env hs demo q m c code ha hr hf w).1 rfl (printable_closed _ (by decide +kernel))
    (members_filled (by simp) (by decide +kernel))

omit hs ha in
/-- Code that may be incomplete. -/
example : ∃ q, Accepted sampleEnv.C sampleEnv.J sampleEnv.auth q (sampleReq "is_complete_request" (.obj [(lit "code", .str (lit "incomplete"))])) ∧
    IsReq (sampleReq "is_complete_request" (.obj [(lit "code", .str (lit "incomplete"))])) .isComplete ∧
    codeField (sampleReq "is_complete_request" (.obj [(lit "code", .str (lit "incomplete"))])).body.content = some (lit "incomplete") := by
  obtain ⟨q, hq⟩ := sampleReq_accepted "is_complete_request" (.obj [(lit "code", .str (lit "incomplete"))]) (by decide) (by decide) (by decide)
  exact ⟨q, hq, by unfold IsReq; decide +kernel, by decide +kernel⟩

/-- C95: what the example kernel says of itself. -/
theorem C95_demo_info (hr : IsReq m .kernelInfo) :
    Talks env m c w [] .kernelInfo [] "kernel_info_reply" DemoInfo w.count [] ((dispatch env demo q c).run w) := by
  refine ret_info (C24_kernel_info env hs demo q m c ha hr w).1 (j := demoInfo) rfl (by decide +kernel)
    (printable_closed _ (by decide +kernel)) fun j' hw => ⟨_, members_with (members_filled (by simp) (by decide +kernel))
      (by decide +kernel) hw, members_filled (by simp) (by decide +kernel)⟩

omit hs ha in
/-- A request for information. -/
example : ∃ q, Accepted sampleEnv.C sampleEnv.J sampleEnv.auth q (sampleReq "kernel_info_request" (.obj [])) ∧
    IsReq (sampleReq "kernel_info_request" (.obj [])) .kernelInfo := by
  obtain ⟨q, hq⟩ := sampleReq_accepted "kernel_info_request" (.obj []) (by decide) (by decide) (by decide)
  exact ⟨q, hq, by unfold IsReq; decide +kernel⟩

/-- C95: the whole course of an execute request to the test kernel. -/
theorem C95_test_execute (hr : IsReq m .execute) (f : ExecFields) (hf : execFields m.body.content = some f) (hp : ParentsOk w)
    (hc : InInt w.count) (hc' : f.silent = false → InInt (w.count + 1)) :
    ∃ pre, ExecAnnounce env m c w f pre ∧ Talks env m c w pre (execCall w f) (testSays (execCount w f) f.code) "execute_reply"
      (TestAnswers (execCount w f) f.code) (execCount w f) (execEntries f) ((dispatch env testing q c).run w) := by
  have hn : InInt (execCount w f) := by
    unfold execCount
    cases h : f.silent with
    | true => exact hc
    | false => exact hc' h
  have hcode := (execFields_parsed (accepted_parsed hs ha).2.2.2 hf).1
  obtain ⟨h1, h2, h3⟩ := testReply_facts env.eh f.code
  have hsay : saidBy (testPubs (execCount w f) f.code) = testSays (execCount w f) f.code := by
    unfold saidBy testPubs testSays
    simp only [List.map_append]
    congr 1
    · congr 1
      · split <;> rfl
      · split <;> rfl
    · split <;> rfl
  have key : ∃ p, Members [("status", txt "ok"), ("payload", .arr p), ("user_expressions", .obj [])] (testReply f.code) ∧
      (if f.code = lit "?" then ∃ x d html, p = [x] ∧ Members [("data", d), ("source", txt "page"), ("start", .int 0)] x ∧
        Members [("text/plain", txt "https://xeus.readthedocs.io"), ("text/html", .str html)] d
      else p = []) := by
    unfold testReply
    split
    · exact ⟨_, members_filled (by simp) (by decide +kernel), _, _, _, rfl, members_filled (by simp) (by decide +kernel),
        members_filled (by simp) (by decide +kernel)⟩
    · exact ⟨_, members_filled (by simp) (by decide +kernel), rfl⟩
  obtain ⟨p, hm, hpay⟩ := key
  obtain ⟨pre, hann, ht⟩ := script_execute (I := testing) hs ha hr hf hp hc hc' (testExecute_script _ _)
    (testPubs_printable hn hcode) h1 h2 h3 (by decide) hm (by simp only [List.map]; decide +kernel)
  refine ⟨pre, hann, ht.ok, ?_, ht.count, ht.hist, ht.comm, ht.input, ht.shellQ, ht.stdinQ⟩
  obtain ⟨b, es, md, j, rep, i, g1, g2, g3, g4, g5, g6⟩ := ht.out
  exact ⟨b, es, md, j, rep, i, g1, hsay ▸ g2, ⟨p, g3, hpay⟩, g4, g5, g6⟩

omit hs ha in
/-- A request for the pager. -/
example : ∃ q f, Accepted sampleEnv.C sampleEnv.J sampleEnv.auth q (sampleReq "execute_request" (.obj [(lit "code", .str (lit "?"))])) ∧
    IsReq (sampleReq "execute_request" (.obj [(lit "code", .str (lit "?"))])) .execute ∧
    execFields (sampleReq "execute_request" (.obj [(lit "code", .str (lit "?"))])).body.content = some f ∧
    f.code = lit "?" ∧ ParentsOk (World.initial () [] []) ∧ InInt ((World.initial () [] []).count + 1) := by
  obtain ⟨q, hq⟩ := sampleReq_accepted "execute_request" (.obj [(lit "code", .str (lit "?"))]) (by decide) (by decide) (by decide)
  exact ⟨q, _, hq, by unfold IsReq; decide +kernel, rfl, rfl, fun _ => ⟨rfl, (jsonUtf8_iff _).2 rfl⟩, by decide⟩

omit hs ha in
/-- A cell that prints. -/
example : ∃ q f, Accepted sampleEnv.C sampleEnv.J sampleEnv.auth q (sampleReq "execute_request" (.obj [(lit "code", .str (lit "hello, world"))])) ∧
    IsReq (sampleReq "execute_request" (.obj [(lit "code", .str (lit "hello, world"))])) .execute ∧
    execFields (sampleReq "execute_request" (.obj [(lit "code", .str (lit "hello, world"))])).body.content = some f ∧
    f.code = lit "hello, world" ∧ ParentsOk (World.initial () [] []) ∧ InInt ((World.initial () [] []).count + 1) := by
  obtain ⟨q, hq⟩ := sampleReq_accepted "execute_request" (.obj [(lit "code", .str (lit "hello, world"))]) (by decide) (by decide) (by decide)
  exact ⟨q, _, hq, by unfold IsReq; decide +kernel, rfl, rfl, fun _ => ⟨rfl, (jsonUtf8_iff _).2 rfl⟩, by decide⟩

/-- C95: requests for completion to the test kernel. -/
theorem C95_test_complete (hr : IsReq m .complete) (code : Str) (pos : Int) (hf : completeFields m.body.content = some (code, pos)) :
    Talks env m c w [] (.complete code pos) [] "complete_reply" TestCompletes w.count [] ((dispatch env testing q c).run w) :=
  ret_verbatim (C24_complete env hs testing q m c code pos ha hr hf w).1 rfl (printable_closed _ (by decide +kernel))
    (members_filled (by simp) (by decide +kernel))

/-- C95: requests for inspection to the test kernel. -/
theorem C95_test_inspect (hr : IsReq m .inspect) (code : Str) (pos detail : Int)
    (hf : inspectFields m.body.content = some (code, pos, detail)) :
    Talks env m c w [] (.inspect code pos detail) [] "inspect_reply" TestInspects w.count [] ((dispatch env testing q c).run w) :=
  ret_verbatim (C24_inspect env hs testing q m c code pos detail ha hr hf w).1 rfl (printable_closed _ (by decide +kernel))
    (members_filled (by simp) (by decide +kernel))

/-- C95: to the test kernel code is as complete as it says itself. -/
theorem C95_test_is_complete (hr : IsReq m .isComplete) (code : Str) (hf : codeField m.body.content = some code) :
    Talks env m c w [] (.isComplete code) [] "is_complete_reply" (TestIsComplete code) w.count [] ((dispatch env testing q c).run w) := by
  have hcode : Utf8 code := by
    have hf' := hf
    simp only [codeField, Option.ite_none_right_eq_some] at hf'
    exact parsed_str (accepted_parsed hs ha).2.2.2 (utf8_lit (by decide)) hf'.2
  refine ret_verbatim (C24_is_complete env hs testing q m c code ha hr hf w).1 rfl (testIsComplete_printable hcode) ?_
  unfold TestIsComplete testIsComplete
  simp only
  split
  · exact members_filled (l := [("status", .str code), ("indent", text "   ")]) (by simp) (by simp; decide)
  · exact members_filled (l := [("status", .str code)]) (by simp) (by simp)

/-- C95: what the test kernel says of itself. -/
theorem C95_test_info (hr : IsReq m .kernelInfo) :
    Talks env m c w [] .kernelInfo [] "kernel_info_reply" TestInfo w.count [] ((dispatch env testing q c).run w) := by
  refine ret_info (C24_kernel_info env hs testing q m c ha hr w).1 (j := testInfo) rfl (by decide +kernel)
    (printable_closed _ (by decide +kernel)) fun j' hw => ⟨_, members_with (members_filled (by simp) (by decide +kernel))
      (by decide +kernel) hw, members_filled (by simp) (by decide +kernel)⟩

/-- C95: opening a comm of the target that the test kernel registers is undefined behaviour: its callback does not move the comm, whose
destructor then reads a flag that was never set (C40). -/
theorem C95_test_comm (hr : IsReq m .commOpen) (id : Str) (t : Nat) (n : Target)
    (h1 : m.body.content.find? (lit "target_name") = some (.str (lit "test_target")))
    (h2 : m.body.content.find? (lit "comm_id") = some (.str id)) (h3 : id.length ≤ 55)
    (h4 : alGet (lit "test_target") w.comm.names = some t) (h5 : alGet t w.comm.nodes = some n) (h6 : n.managed = true)
    (h7 : n.callback = some 0) : ∃ why w', (dispatch env testing q c).run w = (.ub why, w') :=
  C40_callback_returns env hs testing q m c ha hr w h1 h2 h3 h4 h5 h6 h7 fun _ => rfl

omit hs ha in
/-- The target as the test kernel registers it. -/
example : ∃ q t n, Accepted sampleEnv.C sampleEnv.J sampleEnv.auth q (sampleReq "comm_open" (.obj [(lit "comm_id", .str (lit "c1")), (lit "target_name", .str (lit "test_target"))])) ∧
    IsReq (sampleReq "comm_open" (.obj [(lit "comm_id", .str (lit "c1")), (lit "target_name", .str (lit "test_target"))])) .commOpen ∧
    alGet (lit "test_target") ((configure sampleEnv testing testConf).run (World.initial () [] [])).2.comm.names = some t ∧
    alGet t ((configure sampleEnv testing testConf).run (World.initial () [] [])).2.comm.nodes = some n ∧ n.managed = true ∧ n.callback = some 0 := by
  obtain ⟨q, hq⟩ := sampleReq_accepted "comm_open" (.obj [(lit "comm_id", .str (lit "c1")), (lit "target_name", .str (lit "test_target"))]) (by decide) (by decide) (by decide)
  exact ⟨q, _, _, hq, by unfold IsReq; decide +kernel, rfl, rfl, rfl, rfl⟩

end

end Xeus
