import Verif.Kernels.Whole
import Verif.Kernels.MainProps
import Verif.Kernels.SplitSessionProps

/-!
# C113: everything the kernels that come with the library do
-/

namespace Xeus

open Spec Kernels Build Build.Spec

variable {env : Env}

theorem demo_tidy {p : Platform} {h : Host} {argv : List Str} {k : Kern Unit} (hk : demoMain p h argv = .ok k) (hJ : LawfulCodec p.J)
    (hR : LawfulRegex p.R) (hu : Utf8 (getUserName h)) (hn : ∀ n, Utf8 (p.now n)) {core : Core Unit} (hcore : k.core = some core) :
    core.I = demo ∧ Sane core.env ∧ k.w.hist = [] ∧ Tidy demoPersona k.w.comm := by
  obtain ⟨core', g1, g2, g3, _, _, _, g6, _⟩ := program_core rfl hk hJ hR hu hn
  rw [hcore] at g1
  cases g1
  have hw : k.w = World.initial () [] [] := (congrArg Prod.snd g6).symm
  rw [hw]
  exact ⟨g2, g3, rfl, rfl, fun _ _ => rfl, fun _ hx => by cases hx⟩

theorem test_tidy {p : Platform} {h : Host} {argv : List Str} {k : Kern Unit} (hk : testMain p h argv = .ok k ∨ testMainSplit p h argv = .ok k)
    (hJ : LawfulCodec p.J) (hR : LawfulRegex p.R) (hu : Utf8 (getUserName h)) (hn : ∀ n, Utf8 (p.now n)) {core : Core Unit}
    (hcore : k.core = some core) : core.I = testing ∧ Sane core.env ∧ k.w.hist = [] ∧ Tidy testPersona k.w.comm := by
  obtain ⟨core', g1, g2, g3, _, _, _, g6, _⟩ : ∃ core, k.core = some core ∧ core.I = testing ∧ Sane core.env ∧ core.env.eh = .strict ∧
      core.env.user = getUserName h ∧ Wired core k ∧
      (configure core.env core.I testConf).run (World.initial () [] []) = (.ok (), k.w) ∧
      (∃ st : Start Unit, st.w = { k.w with out := [] }) := by
    rcases hk with hk | hk <;> exact program_core rfl hk hJ hR hu hn
  rw [hcore] at g1
  cases g1
  obtain ⟨acts, hacts⟩ := testConf_run core.env core.I []
  rw [hacts] at g6
  have hw := (congrArg Prod.snd g6).symm
  simp only at hw
  rw [hw]
  refine ⟨g2, g3, rfl, rfl, fun name hx => ?_, fun name hx => ?_⟩
  · have hne : ¬ lit "test_target" = name := fun e => hx (by rw [← e]; simp [testPersona])
    simp [alGet, hne]
  · simp only [testPersona, List.mem_singleton] at hx
    subst hx
    exact ⟨0, ⟨lit "test_target", some 0, true⟩, 0, rfl, rfl, rfl, rfl⟩

/-- C113: whatever is sent to the example program, while its server is not handling a message all that was done, the number of executions, the
history and the latest headers are as specified for the messages handled. -/
theorem C113_demo (p : Platform) (h : Host) (argv : List Str) (k : Kern Unit) (hk : demoMain p h argv = .ok k) (hJ : LawfulCodec p.J)
    (hR : LawfulRegex p.R) (hu : Utf8 (getUserName h)) (hn : ∀ n, Utf8 (p.now n)) (core : Core Unit) (hcore : k.core = some core)
    (st : Start Unit) (hst : st.w = k.w) (s : Main Unit) (hr : Main.Reach core.env core.I st s) (hi : Idle s) :
    Everything demoPersona core.env (handledIn s.log) (eventsIn s.log) s.c.w.count s.c.w.hist fun c => (s.c.w.parent c).header := by
  haveI := program_stock hk hR core hcore
  obtain ⟨g1, g2, g3, g4⟩ := demo_tidy hk hJ hR hu hn hcore
  rw [Main.events_reach hr]
  have := C78_serial core.env core.I st s hr hi
  rw [g1] at this
  exact (serial_everything g2 (demo_embodies g2) (by rw [hst]; exact g3) (by rw [hst]; exact g4) this).2.2.2

/-- C113: the same of the test program. -/
theorem C113_test (p : Platform) (h : Host) (argv : List Str) (k : Kern Unit) (hk : testMain p h argv = .ok k) (hJ : LawfulCodec p.J)
    (hR : LawfulRegex p.R) (hu : Utf8 (getUserName h)) (hn : ∀ n, Utf8 (p.now n)) (core : Core Unit) (hcore : k.core = some core)
    (st : Start Unit) (hst : st.w = k.w) (s : Main Unit) (hr : Main.Reach core.env core.I st s) (hi : Idle s) :
    Everything testPersona core.env (handledIn s.log) (eventsIn s.log) s.c.w.count s.c.w.hist fun c => (s.c.w.parent c).header := by
  haveI := program_stock hk hR core hcore
  obtain ⟨g1, g2, g3, g4⟩ := test_tidy (.inl hk) hJ hR hu hn hcore
  rw [Main.events_reach hr]
  have := C78_serial core.env core.I st s hr hi
  rw [g1] at this
  exact (serial_everything g2 (test_embodies g2) (by rw [hst]; exact g3) (by rw [hst]; exact g4) this).2.2.2

/-- C113: the same of the test programs with two threads, as long as these take turns. -/
theorem C113_test_split (p : Platform) (h : Host) (argv : List Str) (k : Kern Unit) (hk : testMainSplit p h argv = .ok k) (hJ : LawfulCodec p.J)
    (hR : LawfulRegex p.R) (hu : Utf8 (getUserName h)) (hn : ∀ n, Utf8 (p.now n)) (core : Core Unit) (hcore : k.core = some core)
    (st : Start Unit) (hst : st.w = k.w) (s : Duo Unit) (hr : InTurn core.env core.I st s) (hi : ∀ t, Between s t) :
    Everything testPersona core.env (handledIn (served s.log)) (eventsIn (served s.log)) s.w.count s.w.hist fun c => (s.w.parent c).header := by
  haveI := program_stock hk hR core hcore
  obtain ⟨g1, g2, g3, g4⟩ := test_tidy (.inr hk) hJ hR hu hn hcore
  rw [g1] at hr
  have hd : SendsValues testing := testing_sends
  rw [Duo.events_reach (sound_of g2 hd) (Duo.orderly_reach hr)]
  exact (serial_everything g2 (test_embodies g2) (by rw [hst]; exact g3) (by rw [hst]; exact g4)
    (C107_serial core.env g2 testing hd st s hr hi)).2.2.2

/-! ## The state is given by the messages -/

/-- The number of executions and the history after a message. -/
noncomputable def afterOne (m : XMessage) (x : Int × Hist) : Int × Hist :=
  open Classical in
  if IsReq m .execute then match execFields m.body.content with
    | some f => (nextCount x.1 f, x.2 ++ execEntries f)
    | none => x
  else x

theorem conduct_after {P : Persona} {n n' : Int} {h h' : Hist} {lat : Chan → Json} {c : Chan} {m : XMessage} {evs : List Ev}
    (hC : Conduct P env n h lat c m evs n' h') : (n', h') = afterOne m (n, h) := by
  have other : ∀ r, IsReq m r → r ≠ .execute → (n, h) = afterOne m (n, h) := by
    intro r hr hne
    unfold afterOne
    rw [if_neg fun he => hne (isReq_unique hr he)]
  cases hC with
  | execute f pre said md j rep hr hf _ _ _ _ => unfold afterOne; rw [if_pos hr, hf]
  | complete code pos md j rep hr _ _ _ => exact other _ hr (by decide)
  | inspect code pos d md j rep hr _ _ _ => exact other _ hr (by decide)
  | isComplete code md j rep hr _ _ _ => exact other _ hr (by decide)
  | info md j rep hr _ _ => exact other _ hr (by decide)
  | history j rep hr _ _ => exact other _ hr (by decide)
  | noHistory hr _ => exact other _ hr (by decide)
  | commInfo w rep hr _ _ => exact other _ hr (by decide)
  | commOpen hr _ => exact other _ hr (by decide)
  | comm r hr hk _ => exact other _ hr (by rcases hk with rfl | rfl <;> decide)
  | shutdown r a b hr _ _ _ => exact other _ hr (by decide)
  | interrupt a b hr _ _ => exact other _ hr (by decide)
  | malformed hm =>
    rcases hm with ⟨t, ht, hno⟩ | ⟨hr, hf⟩ | ⟨hr, _⟩ | ⟨hr, _⟩ | ⟨hr, _⟩ | ⟨hr, _⟩ | ⟨hr, _⟩ | hr
    · unfold afterOne
      rw [if_neg]
      intro he
      unfold IsReq at he
      rw [ht] at he
      cases he
      exact hno .execute rfl
    · unfold afterOne; rw [if_pos hr, hf]
    all_goals exact other _ hr (by decide)

/-- C113: the number of executions, the history and the latest headers depend on the messages only: whenever the same messages are handled in the
same order, by whichever of the kernels, they are the same. -/
theorem C113_determined {P P' : Persona} {l : List (Chan × Multipart)} {es es' : List Ev} {n n' : Int} {h h' : Hist} {lat lat' : Chan → Json}
    (h1 : Everything P env l es n h lat) (h2 : Everything P' env l es' n' h' lat') : n = n' ∧ h = h' ∧ lat = lat' := by
  induction h1 generalizing es' n' h' lat' with
  | nil =>
    generalize hl : ([] : List (Chan × Multipart)) = l at h2
    cases h2 with
    | nil => exact ⟨rfl, rfl, rfl⟩
    | refused => simp at hl
    | accepted => simp at hl
  | @refused l es n h lat c q _ _ hq ih =>
    generalize hl : l ++ [(c, q)] = l' at h2
    cases h2 with
    | nil => simp at hl
    | refused c' q' h2 _ _ =>
      obtain ⟨rfl, _⟩ := List.append_inj' hl rfl
      exact ih h2
    | accepted c' q' m b evs i _ _ h2 _ ha =>
      obtain ⟨_, hx⟩ := List.append_inj' hl rfl
      simp only [List.cons.injEq, Prod.mk.injEq, and_true] at hx
      obtain ⟨rfl, rfl⟩ := hx
      exact absurd hq (accepted_not_refused ha)
  | @accepted l es n h lat c q m b evs i n₁ h₁ _ _ ha _ hC _ ih =>
    generalize hl : l ++ [(c, q)] = l' at h2
    cases h2 with
    | nil => simp at hl
    | refused c' q' _ _ hq =>
      obtain ⟨_, hx⟩ := List.append_inj' hl rfl
      simp only [List.cons.injEq, Prod.mk.injEq, and_true] at hx
      obtain ⟨rfl, rfl⟩ := hx
      exact absurd hq (accepted_not_refused ha)
    | accepted c' q' m' b' evs' i' _ _ h2 _ ha' _ hC' _ =>
      obtain ⟨rfl, hx⟩ := List.append_inj' hl rfl
      simp only [List.cons.injEq, Prod.mk.injEq, and_true] at hx
      obtain ⟨rfl, rfl⟩ := hx
      obtain rfl := accepted_unique ha ha'
      obtain ⟨rfl, rfl, rfl⟩ := ih h2
      have := (conduct_after hC).trans (conduct_after hC').symm
      simp only [Prod.mk.injEq] at this
      exact ⟨this.1, this.2, rfl⟩

/-! ## An example -/

/-- All kinds of messages: for the shell socket. -/
def variety : List XMessage :=
  [reqFrom "a" "m1" "execute_request" (.obj [(lit "code", .str (lit "x"))]),
   reqFrom "a" "m2" "history_request" (.obj [(lit "hist_access_type", .str (lit "tail")), (lit "n", .int 5)]),
   reqFrom "b" "m3" "execute_request" (.obj [(lit "code", .int 3)]),
   reqFrom "b" "m4" "comm_open" (.obj [(lit "comm_id", .str (lit "c1")), (lit "target_name", .str (lit "t"))]),
   reqFrom "b" "m5" "comm_msg" (.obj [(lit "comm_id", .str (lit "c1"))]),
   reqFrom "b" "m6" "comm_info_request" (.obj []),
   reqFrom "b" "m7" "no_request" (.obj []),
   reqFrom "b" "m8" "complete_request" (.obj [(lit "code", .str (lit "H")), (lit "cursor_pos", .int 1)])]

/-- For the control socket. -/
def control : List XMessage :=
  [reqFrom "c" "n1" "execute_request" (.obj [(lit "code", .str (lit "y"))]), reqFrom "c" "n2" "interrupt_request" (.obj []),
   reqFrom "c" "n3" "debug_request" (.obj []), reqFrom "c" "n4" "shutdown_request" (.obj [(lit "restart", .bool true)])]

/-- The messages for the shell socket, a message that is none, then those for the control socket. -/
def showTurns (env : Env) : List Main.Choice :=
  variety.map (fun m => Main.Choice.shell (sentTo env m)) ++ [Main.Choice.shell [lit "a"]] ++ List.replicate 300 Main.Choice.main ++
    control.map (fun m => Main.Choice.control (sentTo env m)) ++ List.replicate 150 Main.Choice.main

def demoShow : Main Unit := (showTurns demoEnv).foldl (Main.choose demoEnv demo) (Main.init (Start.fresh ()))

/-- Thirteen messages, two executions, then a stop. -/
example : ∃ k core st, demoMain samplePlatform demoHost [lit "kernel"] = .ok k ∧ k.core = some core ∧ st.w = k.w ∧
    Main.Reach core.env core.I st demoShow ∧ Idle demoShow ∧ (handledIn demoShow.log).length = 13 ∧ demoShow.c.w.count = 2 ∧
    demoShow.c.w.hist.length = 2 ∧ Ev.stop ∈ demoShow.c.w.out := by
  obtain ⟨k, core, h1, h2, h3, h4, h5, _⟩ := demo_ok
  refine ⟨k, core, Start.fresh (), h1, h2, h5.symm, ?_, ?_, by decide +kernel, by decide +kernel, by decide +kernel, by decide +kernel⟩
  · rw [h3, h4]; exact Main.reach_choose _
  · have hi : demoShow.pc = .waitPub := by decide +kernel
    exact ⟨fun rs => by rw [hi]; simp, by rw [hi]; simp⟩

def testShow : Main Unit := (showTurns testEnv).foldl (Main.choose testEnv testing) (Main.init testStart)

example : ∃ k core st, testMain samplePlatform demoHost [lit "kernel", lit "-f", lit "k.json"] = .ok k ∧ k.core = some core ∧ st.w = k.w ∧
    Main.Reach core.env core.I st testShow ∧ Idle testShow ∧ (handledIn testShow.log).length = 13 ∧ testShow.c.w.count = 2 ∧
    testShow.c.w.hist.length = 2 ∧ Ev.stop ∈ testShow.c.w.out := by
  obtain ⟨k, core, h1, h2, h3, h4, h5, _⟩ := test_ok
  refine ⟨k, core, testStart, h1, h2, h5.symm, ?_, ?_, by decide +kernel, by decide +kernel, by decide +kernel, by decide +kernel⟩
  · rw [h3, h4]; exact Main.reach_choose _
  · have hi : testShow.pc = .waitPub := by decide +kernel
    exact ⟨fun rs => by rw [hi]; simp, by rw [hi]; simp⟩

/-- The shell thread handles its messages, then the control thread. -/
def splitTurns : List Split.Choice :=
  variety.map (fun m => Split.Choice.toShell (sentTo testSplitEnv m)) ++ [Split.Choice.toShell [lit "a"]] ++
    List.replicate 300 Split.Choice.shell ++ control.map (fun m => Split.Choice.toControl (sentTo testSplitEnv m)) ++
    List.replicate 150 Split.Choice.control

def splitShow : Duo Unit := splitTurns.foldl (Duo.choose testSplitEnv testing) (Duo.init testStart)

example : ∃ k core st, testMainSplit samplePlatform demoHost [lit "kernel", lit "-f", lit "k.json"] = .ok k ∧ k.core = some core ∧ st.w = k.w ∧
    InTurn core.env core.I st splitShow ∧ (∀ t, Between splitShow t) ∧ (handledIn (served splitShow.log)).length = 13 ∧ splitShow.w.count = 2 ∧
    Ev.stop ∈ splitShow.w.out := by
  obtain ⟨k, core, h1, h2, h3, h4, h5, _⟩ := testSplit_ok
  refine ⟨k, core, testStart, h1, h2, h5.symm, ?_, ?_, by decide +kernel, by decide +kernel, by decide +kernel⟩
  · rw [h3, h4]; exact Duo.orderly_choose _ (by decide +kernel)
  · intro t; cases t <;> exact Duo.rest_ok (by decide +kernel)

/-- Other identifiers and events, the same history. -/
example : ∃ es es' n n' h h' lat lat', Everything testPersona testEnv (handledIn testShow.log) es n h lat ∧
    Everything testPersona testEnv (handledIn testShow.log) es' n' h' lat' ∧ n = 2 := by
  obtain ⟨k, core, h1, h2, h3, h4, h5, h6⟩ := test_ok
  have hi : testShow.pc = .waitPub := by decide +kernel
  have := C113_test samplePlatform demoHost [lit "kernel", lit "-f", lit "k.json"] k h1 stdCodec_lawful stdRegex_lawful
    (by show Utf8 (lit "user"); exact utf8_lit (by decide)) (sampleEnv_sane.now rfl) core h2 testStart h5.symm testShow
    (by rw [h3, h4]; exact Main.reach_choose _) ⟨fun rs => by rw [hi]; simp, by rw [hi]; simp⟩
  rw [h3] at this
  exact ⟨_, _, _, _, _, _, _, _, this, this, by decide +kernel⟩

end Xeus
