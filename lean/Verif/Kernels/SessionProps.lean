import Verif.Kernels.SessionSpec
import Verif.Kernels.DemoProps
import Verif.Server.TranscriptProps
import Verif.Server.AtomicProps
import Verif.Kernels.Sample

/-!
# C106: sessions with the test kernel
-/

namespace Xeus

open Spec Kernels

variable {env : Env}

theorem answered_of {m : XMessage} {w : World Unit} {k : Call} {rt : String} {P : Json → Prop} {n : Int} {x : Res Unit × World Unit}
    (h : Talks env m .shell w [] k [] rt P n [] x) : ∃ blk, TestTurn env m k rt P blk ∧ x.2.out = w.out ++ blk ∧ x.2.hist = w.hist := by
  obtain ⟨b, es, md, j, rep, i, g1, g2, g3, g4, g5, g6⟩ := h.out
  obtain rfl : es = [] := g2
  exact ⟨_, ⟨b, md, j, rep, i, g1, g3, g4, g5, rfl⟩, by simpa using g6, by simpa using h.hist⟩

theorem session_snoc (hs : Sane env) {qs : List Multipart} {es : List Ev} {h : Hist} {q : Multipart} {w w' : World Unit}
    (hS : TestSession env qs es w.count h) (ho : w.out = es) (hp : ParentsOk w) (hc : InInt w.count)
    (hq : ∀ m, Accepted env.C env.J env.auth q m → TestAsks m) (hrun : (dispatch env testing q .shell).run w = (.ok (), w')) :
    ∃ h', w'.hist = w.hist ++ h' ∧ TestSession env (qs ++ [q]) w'.out w'.count (h ++ h') := by
  rcases dispatch_trichotomy (env := env) testing q .shell w with ⟨hr, hd⟩ | ⟨_, s, hd⟩ | ⟨m, ha⟩
  · rw [hd] at hrun
    simp only [Prod.mk.injEq, true_and] at hrun
    subst hrun
    exact ⟨[], by simp, by rw [List.append_nil, ho]; exact hS.refused q hr⟩
  · rw [hd] at hrun; cases hrun
  · have other : ∀ {k : Call} {rt : String} {P : Json → Prop}, Talks env m .shell w [] k [] rt P w.count [] ((dispatch env testing q .shell).run w) →
        ∃ blk, TestTurn env m k rt P blk ∧ w'.out = es ++ blk ∧ w'.hist = w.hist ++ [] ∧ w'.count = w.count := by
      intro k rt P ht
      obtain ⟨blk, g1, g2, g3⟩ := answered_of ht
      have g4 := ht.count
      rw [hrun] at g2 g3 g4
      exact ⟨blk, g1, by rw [← ho]; exact g2, by rw [List.append_nil]; exact g3, g4⟩
    rcases hq m ha with ⟨hr, f, hf⟩ | ⟨hr, ⟨code, pos⟩, hf⟩ | ⟨hr, ⟨code, pos, detail⟩, hf⟩ | ⟨hr, code, hf⟩ | hr
    · have hov : f.silent = false → InInt (w.count + 1) := by
        intro hsil
        by_cases h : InInt (w.count + 1)
        · exact h
        · obtain ⟨s, hub⟩ := exec_overflow hs testing .shell ha hr hf hsil h
          rw [hrun] at hub
          cases hub
      obtain ⟨pre, g0, ht⟩ := C95_test_execute env hs q m .shell ha w hr f hf hp hc hov
      obtain ⟨b, said, md, j, rep, i, g1, g2, g3, g4, g5, g6⟩ := ht.out
      have g7 := ht.count
      have g8 := ht.hist
      rw [hrun] at g6 g7 g8
      refine ⟨_, g8, ?_⟩
      rw [show w'.out = _ from g6, show w'.count = _ from g7, ho]
      refine hS.execute q m f _ ha hr hf ⟨b, pre, said, md, j, rep, i, g1, ?_, g2, g3, g4, g5, rfl⟩
      unfold ExecAnnounce at g0
      cases hsil : f.silent with
      | true => simpa [hsil] using g0
      | false => simpa [hsil, nextCount, shellParent] using g0
    · obtain ⟨blk, g1, g2, g3, g4⟩ := other (C95_test_complete env hs q m .shell ha w hr code pos hf)
      refine ⟨[], g3, ?_⟩
      rw [g2, g4, List.append_nil]
      exact hS.complete q m code pos blk ha hr hf g1
    · obtain ⟨blk, g1, g2, g3, g4⟩ := other (C95_test_inspect env hs q m .shell ha w hr code pos detail hf)
      refine ⟨[], g3, ?_⟩
      rw [g2, g4, List.append_nil]
      exact hS.inspect q m code pos detail blk ha hr hf g1
    · obtain ⟨blk, g1, g2, g3, g4⟩ := other (C95_test_is_complete env hs q m .shell ha w hr code hf)
      refine ⟨[], g3, ?_⟩
      rw [g2, g4, List.append_nil]
      exact hS.isComplete q m code blk ha hr hf g1
    · obtain ⟨blk, g1, g2, g3, g4⟩ := other (C95_test_info env hs q m .shell ha w hr)
      refine ⟨[], g3, ?_⟩
      rw [g2, g4, List.append_nil]
      exact hS.info q m blk ha hr g1

theorem serial_session (hs : Sane env) {st : Start Unit} {l : List (Chan × Multipart)} {as : List Multipart} {w : World Unit}
    (h : Serial env testing st l as w) : (∀ x ∈ l, x.1 = .shell ∧ ∀ m, Accepted env.C env.J env.auth x.2 m → TestAsks m) →
    ∃ h', w.hist = st.w.hist ++ h' ∧ TestSession env (l.map (·.2)) w.out w.count h' := by
  induction h with
  | start => intro _; exact ⟨[], by simp, by rw [st.out, st.count]; exact .nil⟩
  | arrive A B _ ih => exact ih
  | @shell l as w w' q r hb _ _ hrun ih =>
    intro hl
    obtain ⟨h', h1, h2⟩ := ih fun x hx => hl x (List.mem_append_left _ hx)
    obtain ⟨n, hn⟩ := C17_tally_exists env (l.map fun x => (x.2, x.1))
    obtain ⟨i1, i2, _⟩ := serial_count hs hb n hn
    obtain ⟨h'', h3, h4⟩ := session_snoc (w := { w with shellQ := r }) hs h2 rfl (show ParentsOk w from serial_parents hs hb)
      (show InInt w.count by rw [i2]; exact i1) (hl (.shell, q) (by simp)).2 hrun
    exact ⟨h' ++ h'', by rw [h3]; simp [h1], by rw [List.map_append]; exact h4⟩
  | @control l as w w' q hb _ hrun ih =>
    intro hl
    have := (hl (.control, q) (by simp)).1
    cases this

/-- C106: in every execution of the default server with the test kernel in which it handled only requests of the shell channel of the kinds the
integration tests send, and while it is not handling one, all that was done, the number of executions and the history are those of a session as
specified. -/
theorem C106_session (hs : Sane env) (st : Start Unit) (s : Main Unit) (h : Main.Reach env testing st s) (hi : Idle s)
    (hq : ∀ x ∈ handledIn s.log, x.1 = .shell ∧ ∀ m, Accepted env.C env.J env.auth x.2 m → TestAsks m) :
    ∃ h', s.c.w.hist = st.w.hist ++ h' ∧ TestSession env ((handledIn s.log).map (·.2)) (eventsIn s.log) s.c.w.count h' := by
  rw [Main.events_reach h]
  exact serial_session hs (C78_serial env testing st s h hi) hq

/-- C106: what is published for an execute request to the test kernel: a status, the announcement, first of all outputs the one given by the code,
later ones, and a status (`test_xeus_stderr`, `test_hello_world_stdout`, `test_execute_result` of the integration tests). -/
theorem C106_first_output {m : XMessage} {f : ExecFields} {n : Int} {es : List Ev} (h : TestRun env m f n es) (hv : f.silent = false) {t : String}
    {j : Json} {r : List (String × Json)} (ht : testSays n f.code = (t, j) :: r) :
    ∃ b e k o said rep i, es = [b, e, .call k, o] ++ said ++ [rep, i] ∧ IsStatus env .shell "busy" m.body.header b ∧
      IsPub env .shell (lit "execute_input") m.body.header (.obj []) (.obj [(lit "code", .str f.code), (lit "execution_count", .int n)]) [] e ∧
      IsPub env .shell (lit t) m.body.header (.obj []) j [] o ∧ Says env m.body.header r said ∧ AnyReply rep ∧
      IsStatus env .shell "idle" m.body.header i := by
  obtain ⟨b, pre, said, md, jr, rep, i, h1, h2, h3, h4, h5, h6, rfl⟩ := h
  rw [hv] at h2
  obtain ⟨e, rfl, he⟩ := h2
  rw [ht] at h3
  obtain ⟨o, said', rfl, ho, hs'⟩ := h3
  obtain ⟨m', w', h5, _⟩ := h5
  exact ⟨b, e, _, o, said', rep, i, rfl, h1, he, ho, hs', ⟨_, m', w', h5⟩, h6⟩

/-- The codes of the tests. -/
example (n : Int) : testSays n (lit "error") =
      [("stream", .obj [(lit "name", txt "stderr"), (lit "text", txt "error")]),
       ("execute_result", .obj [(lit "data", one "text/plain" (txt "error")), (lit "execution_count", .int n), (lit "metadata", .null)])] ∧
    (testSays n (lit "hello, world")).head? = some ("stream", .obj [(lit "name", txt "stdout"), (lit "text", txt "hello, world")]) ∧
    testSays n (lit "6*7") =
      [("execute_result", .obj [(lit "data", one "text/plain" (txt "6*7")), (lit "execution_count", .int n), (lit "metadata", .null)])] := by
  unfold testSays
  refine ⟨?_, ?_, ?_⟩
  · rw [if_neg (by decide +kernel), if_pos rfl, if_neg (by decide +kernel)]; rfl
  · rw [if_pos rfl, if_neg (by decide +kernel), if_neg (by decide +kernel)]; rfl
  · rw [if_neg (by decide +kernel), if_neg (by decide +kernel), if_neg (by decide +kernel)]; rfl

/-- What the integration tests of a `test_kernel` send. -/
def tried : List XMessage :=
  [reqFrom "a" "m1" "execute_request" (.obj [(lit "code", .str (lit "error"))]),
   reqFrom "a" "m2" "complete_request" (.obj [(lit "code", .str (lit "a.")), (lit "cursor_pos", .int 2)]),
   reqFrom "a" "m3" "is_complete_request" (.obj [(lit "code", .str (lit "incomplete"))]),
   reqFrom "a" "m4" "kernel_info_request" (.obj []),
   reqFrom "a" "m5" "inspect_request" (.obj [(lit "code", .str (lit "invalid")), (lit "cursor_pos", .int 1), (lit "detail_level", .int 0)]),
   reqFrom "a" "m6" "execute_request" (.obj [(lit "code", .str (lit "?"))])]

/-- The state when the kernel has handled them, and a message it cannot read. -/
def tests : Main Unit :=
  (tried.map (fun m => Main.Choice.shell (sentTo testEnv m)) ++ [Main.Choice.shell [lit "a"]] ++ List.replicate 260 Main.Choice.main).foldl
    (Main.choose testEnv testing) (Main.init testStart)

/-- Seven messages, two executions. -/
example : Sane testEnv ∧ Main.Reach testEnv testing testStart tests ∧ Idle tests ∧ (handledIn tests.log).length = 7 ∧ tests.c.w.count = 2 ∧
    ∀ x ∈ handledIn tests.log, x.1 = .shell ∧ ∀ m, Accepted testEnv.C testEnv.J testEnv.auth x.2 m → TestAsks m := by
  obtain ⟨_, _, _, _, _, _, _, hs⟩ := test_ok
  have hi : tests.pc = .polling := by decide +kernel
  have hh : handledIn tests.log = tried.map (fun m => (Chan.shell, sentTo testEnv m)) ++ [(.shell, [lit "a"])] := by decide +kernel
  refine ⟨hs, Main.reach_choose _, ⟨fun rs => by rw [hi]; simp, by rw [hi]; simp⟩, by rw [hh]; rfl, by decide +kernel, ?_⟩
  rw [hh]
  have hd : ∀ m ∈ tried, deserialize testEnv.C testEnv.J testEnv.auth (sentTo testEnv m) = .ok m := by decide +kernel
  have hn : (match deserialize testEnv.C testEnv.J testEnv.auth [lit "a"] with | .ok _ => true | _ => false) = false := by decide +kernel
  have key : ∀ m ∈ tried, TestAsks m := by
    intro m hm
    simp only [tried, List.mem_cons, List.not_mem_nil, or_false] at hm
    rcases hm with rfl | rfl | rfl | rfl | rfl | rfl
    · exact .inl ⟨by unfold IsReq; decide +kernel, _, rfl⟩
    · exact .inr (.inl ⟨by unfold IsReq; decide +kernel, _, rfl⟩)
    · exact .inr (.inr (.inr (.inl ⟨by unfold IsReq; decide +kernel, _, rfl⟩)))
    · exact .inr (.inr (.inr (.inr (by unfold IsReq; decide +kernel))))
    · exact .inr (.inr (.inl ⟨by unfold IsReq; decide +kernel, _, rfl⟩))
    · exact .inl ⟨by unfold IsReq; decide +kernel, _, rfl⟩
  intro x hx
  rcases List.mem_append.1 hx with hx | hx
  · obtain ⟨m, hm, rfl⟩ := List.mem_map.1 hx
    refine ⟨rfl, fun m' hm' => ?_⟩
    have h' := (C03_accepted_iff testEnv.C testEnv.J testEnv.auth _ m').2 hm'
    rw [hd m hm] at h'
    cases h'
    exact key m hm
  · obtain rfl := List.mem_singleton.1 hx
    refine ⟨rfl, fun m' hm' => ?_⟩
    have h' := (C03_accepted_iff testEnv.C testEnv.J testEnv.auth _ m').2 hm'
    rw [h'] at hn
    cases hn

end Xeus
