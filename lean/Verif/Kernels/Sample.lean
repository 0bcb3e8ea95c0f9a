import Verif.Kernels.Programs
import Verif.Kernels.Spec
import Verif.Server.SplitAnswerProps

/-!
# The programs that come with the library: sample executions

Used in `example`s only.
-/

namespace Xeus

open Spec Kernels Build

/-! ## Executions that go on for ever -/

/-- A finite execution can be continued by a cycle of two steps. -/
theorem exec_cycle {S W : Type _} {step : W → S → S → Prop} {s s' t : S} {a : W} (h : Steps step s s') (h1 : step a s' t) (h2 : step a t s') :
    ∃ (e : Execution step) (N : Nat), e.state 0 = s ∧ e.state N = s' ∧ (∀ n, N ≤ n → e.state n = s' ∨ e.state n = t) ∧
      ∀ n, N ≤ n → e.who n = some a := by
  obtain ⟨e, N, h0, hN⟩ := exec_of_steps h
  refine ⟨⟨fun n => if n ≤ N then e.state n else if (n - N) % 2 = 0 then s' else t, fun n => if n < N then e.who n else some a, ?_⟩,
    N, ?_, ?_, ?_, ?_⟩
  · intro n
    have := e.ok n
    by_cases g1 : n < N
    · have g2 : n ≤ N := by omega
      have g3 : n + 1 ≤ N := by omega
      simp only [g1, g2, g3, if_true]
      exact this
    · have g3 : ¬ n + 1 ≤ N := by omega
      simp only [g1, g3, if_false]
      by_cases g2 : n = N
      · subst g2
        have : ¬ (n + 1 - n) % 2 = 0 := by omega
        simp only [Nat.le_refl, if_true, this, if_false, hN n (Nat.le_refl _)]
        exact h1
      · have g4 : ¬ n ≤ N := by omega
        simp only [g4, if_false]
        by_cases g5 : (n - N) % 2 = 0
        · have g6 : ¬ (n + 1 - N) % 2 = 0 := by omega
          simp only [g5, g6, if_true, if_false]
          exact h1
        · have g6 : (n + 1 - N) % 2 = 0 := by omega
          simp only [g5, g6, if_true, if_false]
          exact h2
  · simp only [Nat.zero_le, if_true]; exact h0
  · simp only [Nat.le_refl, if_true]; exact hN N (Nat.le_refl _)
  · intro n hn
    show (if n ≤ N then e.state n else if (n - N) % 2 = 0 then s' else t) = s' ∨ (if n ≤ N then e.state n else if (n - N) % 2 = 0 then s' else t) = t
    by_cases h1 : n ≤ N
    · rw [if_pos h1]; exact .inl (hN n hn)
    · rw [if_neg h1]
      split
      · exact .inl rfl
      · exact .inr rfl
  · intro n hn
    show (if n < N then e.who n else some a) = some a
    rw [if_neg (by omega)]

theorem arrivals_mem {l l' : List SEv} (h : l <+: l') : ∀ q ∈ arrivals l, q ∈ arrivals l' := by
  obtain ⟨x, rfl⟩ := h
  intro q hq
  simp only [arrivals, arrivedOn_append, List.mem_append] at hq ⊢
  rcases hq with h | h
  · exact .inl (.inl h)
  · exact .inr (.inl h)

theorem arrivals_length {l l' : List SEv} (h : l <+: l') : (arrivals l).length ≤ (arrivals l').length := by
  obtain ⟨x, rfl⟩ := h
  simp only [arrivals, arrivedOn_append, List.length_append]
  omega

theorem Spec.Traffic.mono {σ : Type} {env : Env} {st : Start σ} {l l' : List SEv} (h : l <+: l') (ht : Traffic env st (arrivals l')) :
    Traffic env st (arrivals l) :=
  ⟨fun q hq => ht.1 q (arrivals_mem h q hq), Int.le_trans (Int.ofNat_le.2 (arrivals_length h)) ht.2⟩

/-- After any schedule that ends with a waiting server, it may wait for ever. -/
theorem Main.idle_exec {σ : Type} {env : Env} {I : Interp σ} {st : Start σ} (cs : List Main.Choice) (s : Main σ)
    (hs : s = cs.foldl (Main.choose env I) (Main.init st)) (h1 : s.pc = .polling) (h2 : s.c.controlQ = []) (h3 : s.c.w.shellQ = []) :
    ∃ (e : Execution (Main.Step env I)) (N : Nat), e.state 0 = Main.init st ∧ Fair e .main ∧ e.state N = s ∧ ∀ n, (e.state n).log <+: s.log := by
  have h : Steps (Main.Step env I) (Main.init st) s := hs ▸ Main.steps_choose cs fun _ => rfl
  have hb : { s with pc := .polling } = s := by rw [← h1]
  obtain ⟨e, N, g0, g1, g2, g3⟩ := exec_cycle h (Main.Step.sampleControl s false h1 (by simp [h2]))
    (by have := Main.Step.nothing (env := env) (I := I) { s with pc := .sampled false } rfl h3
        simp only [hb] at this
        exact this)
  refine ⟨e, N, g0, fun n _ => ⟨max n N, Nat.le_max_left _ _, g3 _ (Nat.le_max_right _ _)⟩, g1, fun n => ?_⟩
  have := Main.log_exec e (Nat.le_max_left n N)
  rcases g2 _ (Nat.le_max_right n N) with h | h <;> rw [h] at this <;> exact this

/-- The same for the split servers. -/
theorem Split.idle_exec {σ : Type} {env : Env} {I : Interp σ} {st : Start σ} (cs : List Split.Choice) (s : Split σ)
    (hs : s = cs.foldl (Split.choose env I) (Split.init st)) (h1 : s.spc = .poll) (h2 : s.c.controlQ = []) (h3 : s.c.w.shellQ = [])
    (h4 : s.kpc = .recv) (h5 : s.ctl = false) :
    ∃ (e : Execution (Split.Step env I)) (N : Nat), e.state 0 = Split.init st ∧ Fair e .shell ∧ Fair e .control ∧ e.state N = s ∧
      ∀ n, (e.state n).log <+: s.log := by
  have h : Steps (Split.Step env I) (Split.init st) s := hs ▸ Split.steps_choose cs fun _ => rfl
  have hb : { s with spc := .poll } = s := by rw [← h1]
  obtain ⟨e, N, g0, g1, g2, g3⟩ := exec_cycle h (Split.Step.sample0 s false h1 (by simp [h3]))
    (by have := Split.Step.nothing (env := env) (I := I) { s with spc := .sampled false } rfl h5
        simp only [hb] at this
        exact this)
  refine ⟨e, N, g0, fun n _ => ⟨max n N, Nat.le_max_left _ _, g3 _ (Nat.le_max_right _ _)⟩, fun n hn => ?_, g1, fun n => ?_⟩
  · exfalso
    obtain ⟨s', hs'⟩ := hn _ (Nat.le_max_left n N)
    rcases g2 _ (Nat.le_max_right n N) with h | h <;> rw [h] at hs' <;> cases hs' <;> simp_all
  · have := Split.log_exec e (Nat.le_max_left n N)
    rcases g2 _ (Nat.le_max_right n N) with h | h <;> rw [h] at this <;> exact this

/-! ## A host -/

/-- All ports are free. -/
def openWorld : Setup.World where
  draw a _ _ := a
  net _ e := some e

/-- The user is found in the environment, and two files hold a configuration. -/
def demoHost : Host where
  pwName := none
  userVar := some (lit "user")
  read f := if f = lit "connection.json" ∨ f = lit "k.json" then some connectionDoc else none
  net := ⟨openWorld, openWorld, openWorld, openWorld, openWorld⟩

/-- The core of the kernel of a program, if it has one. -/
def coreOf (r : Res (Kern Unit)) : Option (Core Unit) :=
  match r with
  | .ok k => k.core
  | _ => none

/-- Its environment. -/
def envOf (r : Res (Kern Unit)) : Env :=
  match coreOf r with
  | some c => c.env
  | none => sampleEnv

theorem envOf_eq {r : Res (Kern Unit)} {k : Kern Unit} {core : Core Unit} (h : r = .ok k) (hc : k.core = some core) : envOf r = core.env := by
  simp [envOf, coreOf, h, hc]

/-- The environments of the three programs on that host. -/
def demoEnv : Env := envOf (demoMain samplePlatform demoHost [lit "kernel"])

def testEnv : Env := envOf (testMain samplePlatform demoHost [lit "kernel", lit "-f", lit "k.json"])

def testSplitEnv : Env := envOf (testMainSplit samplePlatform demoHost [lit "kernel", lit "-f", lit "k.json"])

/-- A kernel that knows a target. -/
def testStart : Start Unit := ⟨((configure sampleEnv testing testConf).run (World.initial () [] [])).2, rfl, rfl, rfl, rfl⟩

/-! ## Messages -/

/-- How a message is sent to a kernel. -/
def sentTo (env : Env) (m : XMessage) : Multipart :=
  match serialize env.C env.J env.auth .strict m with
  | .ok q => q
  | _ => []

/-- A cell. -/
def cell : XMessage := reqFrom "a" "m1" "execute_request" (.obj [(lit "code", .str (lit "1 + 1")), (lit "silent", .bool false)])

/-- A comm for a target that does not exist. -/
def nocomm : XMessage := reqFrom "a" "m2" "comm_open" (.obj [(lit "comm_id", .str (lit "c1")), (lit "target_name", .str (lit "t"))])

/-- A request for information. -/
def infoReq : XMessage := reqFrom "b" "m3" "kernel_info_request" (.obj [])

/-- A request to stop. -/
def stopReq : XMessage := reqFrom "b" "m4" "shutdown_request" (.obj [(lit "restart", .bool false)])

theorem proper_of {env : Env} {targets : List Str} {q : Multipart} {m : XMessage} {t : Req}
    (h : deserialize env.C env.J env.auth q = .ok m) (hr : IsReq m t) (hm : Harmless targets m.body.content t) : Proper env targets q := by
  refine ⟨fun hu => ?_, fun m' hm' => ?_⟩
  · obtain ⟨why, h'⟩ := (C03_undefined_iff env.C env.J env.auth q).2 hu
    rw [h] at h'
    cases h'
  · have h' := (C03_accepted_iff env.C env.J env.auth q m').2 hm'
    rw [h] at h'
    cases h'
    refine ⟨⟨_, hr⟩, fun r hr' => ?_⟩
    rw [← isReq_unique hr hr']
    exact hm

theorem not_shuts {env : Env} {q : Multipart} {m : XMessage} {t : Req} (h : deserialize env.C env.J env.auth q = .ok m) (hr : IsReq m t)
    (ht : t ≠ .shutdown) : ¬ Shuts env q := by
  rintro ⟨m', hm', hr'⟩
  have h' := (C03_accepted_iff env.C env.J env.auth q m').2 hm'
  rw [h] at h'
  cases h'
  exact ht (isReq_unique hr hr')

/-! ## Days -/

theorem demo_ok : ∃ k core, demoMain samplePlatform demoHost [lit "kernel"] = .ok k ∧ k.core = some core ∧ core.env = demoEnv ∧
    core.I = demo ∧ k.w = (Start.fresh ()).w ∧ Sane demoEnv := by
  obtain ⟨k, hk⟩ := exists_ok (r := demoMain samplePlatform demoHost [lit "kernel"]) (by decide +kernel)
  obtain ⟨core, h1, h2, h3, _, _, _, h6, _⟩ := program_core rfl hk stdCodec_lawful stdRegex_lawful
    (by show Utf8 (lit "user"); exact utf8_lit (by decide)) (sampleEnv_sane.now rfl)
  have he : core.env = demoEnv := (envOf_eq hk h1).symm
  exact ⟨k, core, hk, h1, he, h2, (congrArg Prod.snd h6).symm, he ▸ h3⟩

theorem test_ok : ∃ k core, testMain samplePlatform demoHost [lit "kernel", lit "-f", lit "k.json"] = .ok k ∧ k.core = some core ∧
    core.env = testEnv ∧ core.I = testing ∧ k.w = testStart.w ∧ Sane testEnv := by
  obtain ⟨k, hk⟩ := exists_ok (r := testMain samplePlatform demoHost [lit "kernel", lit "-f", lit "k.json"]) (by decide +kernel)
  obtain ⟨core, h1, h2, h3, _, _, _, h6, _⟩ := program_core rfl hk stdCodec_lawful stdRegex_lawful
    (by show Utf8 (lit "user"); exact utf8_lit (by decide)) (sampleEnv_sane.now rfl)
  have he : core.env = testEnv := (envOf_eq hk h1).symm
  exact ⟨k, core, hk, h1, he, h2, (congrArg Prod.snd h6).symm, he ▸ h3⟩

theorem testSplit_ok : ∃ k core, testMainSplit samplePlatform demoHost [lit "kernel", lit "-f", lit "k.json"] = .ok k ∧
    k.core = some core ∧ core.env = testSplitEnv ∧ core.I = testing ∧ k.w = testStart.w ∧ Sane testSplitEnv := by
  obtain ⟨k, hk⟩ := exists_ok (r := testMainSplit samplePlatform demoHost [lit "kernel", lit "-f", lit "k.json"]) (by decide +kernel)
  obtain ⟨core, h1, h2, h3, _, _, _, h6, _⟩ := program_core rfl hk stdCodec_lawful stdRegex_lawful
    (by show Utf8 (lit "user"); exact utf8_lit (by decide)) (sampleEnv_sane.now rfl)
  have he : core.env = testSplitEnv := (envOf_eq hk h1).symm
  exact ⟨k, core, hk, h1, he, h2, (congrArg Prod.snd h6).symm, he ▸ h3⟩

/-- A cell and a comm for the shell socket, a request for information for the control socket. -/
def workTurns (env : Env) : List Main.Choice :=
  [.shell (sentTo env cell), .shell (sentTo env nocomm), .control (sentTo env infoReq)] ++ List.replicate 125 .main

/-- The same followed by a request to stop. -/
def stopTurns (env : Env) : List Main.Choice := workTurns env ++ [.control (sentTo env stopReq)] ++ List.replicate 40 .main

/-- The same for two threads. -/
def workSplitTurns (env : Env) : List Split.Choice :=
  [.toShell (sentTo env cell), .toShell (sentTo env nocomm), .toControl (sentTo env infoReq)] ++
    (List.replicate 105 [Split.Choice.shell, .control]).flatten

def stopSplitTurns (env : Env) : List Split.Choice := workSplitTurns env ++ [.toControl (sentTo env stopReq)] ++ List.replicate 40 .control

/-- The states after them. -/
def demoWork : Main Unit := (workTurns demoEnv).foldl (Main.choose demoEnv demo) (Main.init (Start.fresh ()))

def demoStop : Main Unit := (stopTurns demoEnv).foldl (Main.choose demoEnv demo) (Main.init (Start.fresh ()))

def testWork : Main Unit := (workTurns testEnv).foldl (Main.choose testEnv testing) (Main.init testStart)

def splitWork : Split Unit := (workSplitTurns testSplitEnv).foldl (Split.choose testSplitEnv testing) (Split.init testStart)

def splitStop : Split Unit := (stopSplitTurns testSplitEnv).foldl (Split.choose testSplitEnv testing) (Split.init testStart)

/-- What the messages say is what arrives. -/
def reads (env : Env) : Prop := ∀ m ∈ [cell, nocomm, infoReq, stopReq], deserialize env.C env.J env.auth (sentTo env m) = .ok m

instance (env : Env) : Decidable (reads env) := by unfold reads; infer_instance

theorem traffic_of {env : Env} {st : Start Unit} (hr : reads env) (ht : lit "t" ∉ targetNames st) {l : List Multipart} (hl : l.length ≤ 4)
    (h : ∀ q ∈ l, q ∈ [cell, nocomm, infoReq, stopReq].map (sentTo env)) : Traffic env st l := by
  refine ⟨fun q hq => ?_, ?_⟩
  · have := h q hq
    simp only [List.map, List.mem_cons, List.not_mem_nil, or_false] at this
    rcases this with rfl | rfl | rfl | rfl
    · exact proper_of (t := .execute) (hr _ (by simp)) (by unfold IsReq; decide +kernel) (fun ⟨_, _, _, _, h⟩ => absurd h (by decide +kernel))
    · exact proper_of (t := .commOpen) (hr _ (by simp)) (by unfold IsReq; decide +kernel) (.inr ⟨lit "t", by decide +kernel, ht⟩)
    · exact proper_of (t := .kernelInfo) (hr _ (by simp)) (by unfold IsReq; decide +kernel) trivial
    · exact proper_of (t := .shutdown) (hr _ (by simp)) (by unfold IsReq; decide +kernel) trivial
  · have : (l.length : Int) ≤ 4 := by omega
    exact Int.le_trans this (by decide)

theorem quiet_of {env : Env} (hr : reads env) {l : List Multipart} (h : ∀ q ∈ l, q ∈ [cell, nocomm, infoReq].map (sentTo env)) :
    ∀ q ∈ l, ¬ Shuts env q := by
  intro q hq
  have := h q hq
  simp only [List.map, List.mem_cons, List.not_mem_nil, or_false] at this
  rcases this with rfl | rfl | rfl
  · exact not_shuts (t := .execute) (hr _ (by simp)) (by unfold IsReq; decide +kernel) (by decide)
  · exact not_shuts (t := .commOpen) (hr _ (by simp)) (by unfold IsReq; decide +kernel) (by decide)
  · exact not_shuts (t := .kernelInfo) (hr _ (by simp)) (by unfold IsReq; decide +kernel) (by decide)

/-- A server that handles them and waits for ever. -/
structure Works {S W : Type _} {step : W → S → S → Prop} (env : Env) (st : Start Unit) (log : S → List SEv) (e : Execution step) (N : Nat) :
    Prop where
  traffic : ∀ i, Traffic env st (arrivals (log (e.state i)))
  quiet : ∀ i, ∀ q ∈ arrivals (log (e.state i)), ¬ Shuts env q
  shell : (arrivedOn .shell (log (e.state N)))[0]? = some (sentTo env cell)
  control : (arrivedOn .control (log (e.state N)))[0]? = some (sentTo env infoReq)
  cell : Accepted env.C env.J env.auth (sentTo env cell) cell
  info : Accepted env.C env.J env.auth (sentTo env infoReq) infoReq

theorem works_of {S W : Type _} {step : W → S → S → Prop} {env : Env} {st : Start Unit} {log : S → List SEv} {e : Execution step} {N : Nat}
    {l : List SEv} (hr : reads env) (ht : lit "t" ∉ targetNames st) (hl : ∀ n, log (e.state n) <+: l) (hN : log (e.state N) = l)
    (h1 : arrivedOn .shell l = [cell, nocomm].map (sentTo env)) (h2 : arrivedOn .control l = [infoReq].map (sentTo env)) :
    Works env st log e N := by
  have h3 : arrivals l = [cell, nocomm, infoReq].map (sentTo env) := by simp [arrivals, h1, h2]
  refine ⟨fun i => Traffic.mono (hl i) (traffic_of hr ht (by rw [h3]; simp) fun q hq => ?_), fun i q hq => ?_, by simp [hN, h1], by simp [hN, h2],
    (C03_accepted_iff ..).1 (hr _ (by simp)), (C03_accepted_iff ..).1 (hr _ (by simp))⟩
  · rw [h3] at hq
    simp only [List.map, List.mem_cons, List.not_mem_nil, or_false] at hq ⊢
    rcases hq with h | h | h <;> simp [h]
  · exact quiet_of hr (l := arrivals l) (fun q hq => h3 ▸ hq) q (arrivals_mem (hl i) q hq)

theorem demoStop_traffic : Traffic demoEnv (Start.fresh ()) (arrivals demoStop.log) ∧
    Traffic testSplitEnv testStart (arrivals splitStop.log) := by
  constructor <;> exact traffic_of (by decide +kernel) (by decide +kernel) (by decide +kernel) (by decide +kernel)

theorem blank_fresh : Blank (Start.fresh ()) ∧ Blank testStart := ⟨⟨rfl, rfl⟩, rfl, rfl⟩

/-- The two requests that are to be replied to. -/
theorem cell_req : IsReq cell .execute ∧ Documented cell.body.content .execute := ⟨by unfold IsReq; decide +kernel, _, rfl⟩

theorem infoReq_req : IsReq infoReq .kernelInfo ∧ Documented infoReq.body.content .kernelInfo := ⟨by unfold IsReq; decide +kernel, trivial⟩

/-- A handler has returned. -/
def ended (p : K (World Unit) Unit) : Bool :=
  match p with
  | .done (.ok ()) => true
  | _ => false

theorem done_of {p : K (World Unit) Unit} (h : ended p = true) : p = .done (.ok ()) := by
  unfold ended at h
  split at h
  · rfl
  · cases h

theorem demo_day : ∃ (e : Execution (Main.Step demoEnv demo)) (N : Nat), e.state 0 = Main.init (Start.fresh ()) ∧ Fair e .main ∧
    Works demoEnv (Start.fresh ()) Main.log e N := by
  obtain ⟨e, N, h1, h2, h3, h4⟩ := Main.idle_exec (workTurns demoEnv) demoWork rfl (by decide +kernel) (by decide +kernel) (by decide +kernel)
  exact ⟨e, N, h1, h2, works_of (by decide +kernel) (by decide +kernel) h4 (congrArg _ h3) (by decide +kernel) (by decide +kernel)⟩

theorem test_day : ∃ (e : Execution (Main.Step testEnv testing)) (N : Nat), e.state 0 = Main.init testStart ∧ Fair e .main ∧
    Works testEnv testStart Main.log e N := by
  obtain ⟨e, N, h1, h2, h3, h4⟩ := Main.idle_exec (workTurns testEnv) testWork rfl (by decide +kernel) (by decide +kernel) (by decide +kernel)
  exact ⟨e, N, h1, h2, works_of (by decide +kernel) (by decide +kernel) h4 (congrArg _ h3) (by decide +kernel) (by decide +kernel)⟩

theorem split_day : ∃ (e : Execution (Split.Step testSplitEnv testing)) (N : Nat), e.state 0 = Split.init testStart ∧ Fair e .shell ∧
    Fair e .control ∧ Works testSplitEnv testStart Split.log e N := by
  obtain ⟨e, N, h1, h2, h2', h3, h4⟩ := Split.idle_exec (workSplitTurns testSplitEnv) splitWork rfl (by decide +kernel) (by decide +kernel)
    (by decide +kernel) (by decide +kernel) (by decide +kernel)
  exact ⟨e, N, h1, h2, h2', works_of (by decide +kernel) (by decide +kernel) h4 (congrArg _ h3) (by decide +kernel) (by decide +kernel)⟩

end Xeus
