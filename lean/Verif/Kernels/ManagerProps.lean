import Verif.Kernels.Manager
import Verif.Kernels.WholeProps
import Verif.Kernels.Props

/-!
# C114: kernels with a history manager of their own
-/

namespace Xeus

open Spec Kernels Build Build.Spec

variable {σ : Type}

/-- C114: a kernel constructed with a history manager uses this one, one constructed without uses the default; nothing has been stored in it. -/
theorem C114_manager (p : Platform) (g : Given σ) (k : Kern σ) (h : construct p g = .ok k) (core : Core σ) (hc : k.core = some core)
    (hl : ∀ f, g.logger = some f → p.xeusLog = true → ∀ e, f e = .ok ()) :
    (∀ M, g.manager = some M → core.env.H = M) ∧ (g.manager = none → core.env.H = inMemory p.R) ∧ k.w.hist = [] := by
  obtain ⟨core', h1, _, h3, _⟩ := C82_wired _ _ _ h
  cases hc.symm.trans h1
  refine ⟨fun M hM => ?_, fun hM => ?_, (C82_ready p g k h core hc hl).2.1⟩ <;> rw [h3.libs.2.2.1, hM] <;> rfl

/-- C114: what the interpreter asks its history manager is answered by this manager, from the inputs stored so far, and changes nothing. -/
theorem C114_own (p : Platform) (g : Given σ) (k : Kern σ) (h : construct p g = .ok k) (M : HistoryManager) (hM : g.manager = some M)
    (w : World σ) :
    (∀ n r o, (via M k.listeners k.bindings (.history (.tail n r o))).run w = K.andThen (M.tail w.hist n r o, w) fun j w => (.ok (.json j), w)) ∧
    (∀ s a b r o, (via M k.listeners k.bindings (.history (.range s a b r o))).run w =
      K.andThen (M.range w.hist s a b r o, w) fun j w => (.ok (.json j), w)) ∧
    (∀ t r o n u, (via M k.listeners k.bindings (.history (.search t r o n u))).run w =
      K.andThen (M.search w.hist t r o n u, w) fun j w => (.ok (.json j), w)) ∧
    ∀ c Q, Asks c Q → (via M k.listeners k.bindings (.history (.request c))).run w = K.andThen (Q.ask M w.hist, w) fun j w => (.ok (.json j), w) := by
  obtain ⟨core, h1, h2, h3, _⟩ := C82_wired _ _ _ h
  have he : core.env.H = M := by rw [h3.libs.2.2.1, hM]; rfl
  have ops := h2.ops
  rw [he] at ops
  have sem : ∀ q, (via M k.listeners k.bindings (.history q)).run w = K.andThen (q.apply M w.hist, w) fun j w => (.ok (.json j), w) := by
    intro q
    rw [ops]
    simp only [Op.sem, K.run_bind, K.run_readR, he]
    rfl
  refine ⟨fun n r o => sem _, fun s a b r o => sem _, fun t r o n u => sem _, fun c Q hQ => ?_⟩
  rw [sem]
  simp only [HistOp.apply]
  cases hQ with
  | tail n raw output f0 f1 f2 f3 f4 => rw [C45_tail M w.hist c n raw output f0 f1 f2 f3 f4]; rfl
  | range s a b raw output f0 f1 f2 f3 f4 f5 f6 => rw [C45_range M w.hist c s a b raw output f0 f1 f2 f3 f4 f5 f6]; rfl
  | search t raw output n u f0 f1 f2 f3 f4 f5 f6 => rw [C45_search M w.hist c t n raw output u f0 f1 f2 f5 f3 f4 f6]; rfl

/-- C114: a content puts one question at most. -/
theorem C114_one (c : Json) (Q Q' : Query) (h : Asks c Q) (h' : Asks c Q') : Q = Q' := by
  have n1 : ¬ lit "tail" = lit "search" := by decide
  have n2 : ¬ lit "tail" = lit "range" := by decide
  have n4 : ¬ lit "search" = lit "range" := by decide
  cases h <;> cases h' <;> simp_all

/-- C114: whatever the interpreter and the history manager of a kernel with the default server, while no message is being handled each history
request handled was replied to by the manager's answer to its question, which is about the inputs stored by the requests handled before; no
input was stored otherwise. -/
theorem C114_server (env : Env) (hs : Sane env) (hM : ProperManager env.H) (I : Interp σ) (st : Start σ) (s : Main σ)
    (h : Main.Reach env I st s) (hi : Idle s) : Chronicle env env.H st.w.hist (handledIn s.log) (eventsIn s.log) s.c.w.hist := by
  rw [Main.events_reach h]
  exact serial_chronicle hs hM (C78_serial env I st s h hi)

/-- C114: the same with two threads, as long as these take turns. -/
theorem C114_split (env : Env) (hs : Sane env) (hM : ProperManager env.H) (I : Interp σ) (hd : SendsValues I) (st : Start σ) (s : Duo σ)
    (h : InTurn env I st s) (hi : ∀ t, Between s t) :
    Chronicle env env.H st.w.hist (handledIn (served s.log)) (eventsIn (served s.log)) s.w.hist := by
  rw [Duo.events_reach (sound_of hs hd) (Duo.orderly_reach h)]
  exact serial_chronicle hs hM (C107_serial env hs I hd st s h hi)

/-! ## An example -/

/-- A manager that tells how much was stored, and cannot search. -/
def counting : HistoryManager where
  tail h n _ _ := .ok (.arr [.str (intToString n), .str (intToString h.length)])
  range _ _ _ _ _ _ := .ok (.str [255])
  search _ _ _ _ _ _ := .exc (.runtime "search")

theorem counting_std : counting.StdOnly :=
  ⟨fun _ _ _ _ _ => by simp [counting], fun _ _ _ _ _ _ _ => by simp [counting], fun _ _ _ _ _ _ _ => by simp [counting]⟩

theorem counting_proper : ProperManager counting := by
  rintro h (⟨n, r, o⟩ | ⟨s, a, b, r, o⟩ | ⟨t, r, o, n, u⟩) j hj
  · simp only [Query.ask, counting, Res.ok.injEq] at hj
    subst hj
    rfl
  · simp only [Query.ask, counting, Res.ok.injEq] at hj
    subst hj
    decide
  · cases hj

def countingEnv : Env := { sampleEnv with H := counting }

theorem countingEnv_sane : Sane countingEnv :=
  ⟨sampleEnv_sane.codec, sampleEnv_sane.user, sampleEnv_sane.session, sampleEnv_sane.now, sampleEnv_sane.log, counting_std⟩

/-- Two executions, each followed by a request for the last entries; a range that cannot be printed; a search; another access. -/
def countingTurns : List Main.Choice :=
  ([reqFrom "a" "m1" "execute_request" (.obj [(lit "code", .str (lit "x"))]),
    reqFrom "a" "m2" "history_request" (.obj [(lit "n", .int 5)]),
    reqFrom "a" "m3" "execute_request" (.obj [(lit "code", .str (lit "y"))]),
    reqFrom "b" "m4" "history_request" (.obj [(lit "n", .int 6)]),
    reqFrom "b" "m5" "history_request" (.obj [(lit "hist_access_type", .str (lit "range"))]),
    reqFrom "b" "m6" "history_request" (.obj [(lit "hist_access_type", .str (lit "search"))]),
    reqFrom "b" "m7" "history_request" (.obj [(lit "hist_access_type", .str (lit "all"))]),
    reqFrom "b" "m8" "history_request" (.obj [(lit "n", .str (lit "a"))])]).map
      (fun m => Main.Choice.shell (sentTo countingEnv m)) ++ List.replicate 300 Main.Choice.main

def countingDay : Main Nat := countingTurns.foldl (Main.choose countingEnv sampleInterp) (Main.init 0)

/-- The contents of the replies to history requests. -/
def historyReplies (es : List Ev) : List Json :=
  es.filterMap fun | .reply _ m _ => if typeOf m.body.header = some (lit "history_reply") then some m.body.content else none | _ => none

example : Main.Reach countingEnv sampleInterp 0 countingDay ∧ Idle countingDay ∧ (handledIn countingDay.log).length = 8 ∧
    countingDay.c.w.hist.length = 2 ∧ historyReplies (eventsIn countingDay.log) =
      [.arr [.str (lit "5"), .str (lit "1")], .arr [.str (lit "6"), .str (lit "2")], .null] := by
  refine ⟨Main.reach_choose _, ?_, by decide +kernel, by decide +kernel, by decide +kernel⟩
  have hi : countingDay.pc = .polling := by decide +kernel
  exact ⟨fun rs => by rw [hi]; simp, by rw [hi]; simp⟩

/-- A kernel with this manager. -/
def countingGiven : Given Nat := { sampleGiven with manager := some counting }

example : ∃ k, construct samplePlatform countingGiven = .ok k ∧ countingGiven.manager = some counting ∧ countingGiven.logger = none := by
  obtain ⟨k, hk⟩ := exists_ok (r := construct samplePlatform countingGiven) (by decide +kernel)
  exact ⟨k, hk, rfl, rfl⟩

example : Asks (.obj [(lit "n", .int 5)]) (.tail 5 true false) := .tail 5 true false rfl (by decide) (by decide) (by decide) (by decide)

def countingSplit : Env := { testSplitEnv with H := counting }

/-- Two requests for the shell thread, one for the control thread. -/
def countingDuo : Duo Unit :=
  (([reqFrom "a" "m1" "execute_request" (.obj [(lit "code", .str (lit "x"))]),
     reqFrom "a" "m2" "history_request" (.obj [(lit "n", .int 5)])]).map (fun m => Split.Choice.toShell (sentTo countingSplit m)) ++
    List.replicate 120 Split.Choice.shell ++
    [Split.Choice.toControl (sentTo countingSplit (reqFrom "a" "m3" "history_request" (.obj [(lit "n", .int 6)])))] ++
    List.replicate 60 Split.Choice.control).foldl (Duo.choose countingSplit testing) (Duo.init testStart)

example : InTurn countingSplit testing testStart countingDuo ∧ SendsValues testing ∧ (∀ t, Between countingDuo t) ∧
    (handledIn (served countingDuo.log)).length = 3 ∧
    historyReplies (eventsIn (served countingDuo.log)) = [.arr [.str (lit "5"), .str (lit "1")], .arr [.str (lit "6"), .str (lit "1")]] := by
  refine ⟨Duo.orderly_choose _ (by decide +kernel), testing_sends, ?_, by decide +kernel, by decide +kernel⟩
  intro t; cases t <;> exact Duo.rest_ok (by decide +kernel)

/-- It does no harm, so kernels with it do not fail (C93); it cannot be relied on. -/
theorem counting_secure : Secure counting := by
  rintro h (⟨n, r, o⟩ | ⟨s, a, b, r, o⟩ | ⟨t, r, o, n, u⟩) _ _ _ <;> simp [Query.ask, counting]

instance : Steady countingEnv := ⟨counting_secure⟩

example (eh : ErrH) : ¬ Dependable eh counting := by
  intro h
  obtain ⟨j, hj, _⟩ := h [] (.search [] true false 5 false) (fun _ he => by simp at he) (by decide) ⟨by decide, by decide⟩
    ⟨utf8_lit (s := "") (by decide), by simp, by simp⟩
  cases hj

/-- A manager that says what it was asked for: it can be relied on (C94). -/
def mirror : HistoryManager where
  tail _ _ raw output := .ok (.arr [.bool raw, .bool output])
  range _ _ _ _ raw output := .ok (.arr [.bool raw, .bool output])
  search _ pattern _ _ _ _ := .ok (.str pattern)

theorem mirror_secure : Secure mirror := by
  rintro h (⟨n, r, o⟩ | ⟨s, a, b, r, o⟩ | ⟨t, r, o, n, u⟩) _ _ _ <;> simp [Query.ask, mirror]

theorem mirror_dependable (eh : ErrH) : Dependable eh mirror := by
  rintro h (⟨n, r, o⟩ | ⟨s, a, b, r, o⟩ | ⟨t, r, o, n, u⟩) _ hl hf hp
  · exact ⟨_, rfl, rfl, fun _ => .arr (by simp [JsonUtf8.bool])⟩
  · exact ⟨_, rfl, rfl, fun _ => .arr (by simp [JsonUtf8.bool])⟩
  · exact ⟨_, rfl, rfl, fun _ => .str hp.1⟩

instance : Reliable { countingEnv with H := mirror } := { secure := mirror_secure, dependable := mirror_dependable _ }

end Xeus
