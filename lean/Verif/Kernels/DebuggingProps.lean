import Verif.Kernels.DebuggingLemmas
import Verif.Server.AtomicProps
import Verif.Server.OrderlyProps
import Verif.Debugger.Sample

/-!
# A kernel whose debugger is `xdebugger_base`
-/

namespace Xeus

open Spec

variable {τ ρ : Type}

/-! ## A sample -/

namespace Debugging

open Dbg.Sample

/-- Handling what is received, as a function. -/
def receive (env : Env) (I : Interp τ) (d : Dbg.Debugger ρ) (w : World (τ × Dbg.State ρ)) : List Received → Option (World (τ × Dbg.State ρ))
  | [] => some w
  | .message c q :: l =>
    match (dispatch env (debugKernel I d) q c).run w with
    | (.ok (), w') => receive env I d w' l
    | _ => none
  | .event m :: l =>
    match (Dbg.handleEvent d m).attempt.run w.st.2 with
    | (.ok _, s) => receive env I d { w with st := (w.st.1, s) } l
    | _ => none

theorem receive_debugged {env : Env} {I : Interp τ} {d : Dbg.Debugger ρ} {w₀ w w' : World (τ × Dbg.State ρ)} {l l' : List Received}
    (h : Debugged env I d w₀ l w) (hr : receive env I d w l' = some w') : Debugged env I d w₀ (l ++ l') w' := by
  induction l' generalizing l w with
  | nil =>
    simp only [receive, Option.some.injEq] at hr
    subst hr
    simpa using h
  | cons x l' ih =>
    cases x with
    | message c q =>
      simp only [receive] at hr
      split at hr
      · rename_i w₁ hd
        simpa using ih (.message c q h hd) hr
      · cases hr
    | event m =>
      simp only [receive] at hr
      split at hr
      · rename_i r s hd
        simpa using ih (.event m h hd) hr
      · cases hr

/-- A debug request from a client. -/
def ask (id : String) (content : Json) : Multipart := wireOf (reqFrom "a" id "debug_request" content)

/-- The kernel at the beginning; the adapter will answer three requests. -/
def begin : World (Nat × Dbg.State Nat) := World.initial (0, Dbg.initial 0 noFiles [okAnswer, okAnswer, okAnswer] [[], [], []]) [] []

/-- The debugger is started, breakpoints are set twice, with an execution and an event in between. -/
def session : List Received :=
  [.message .control (ask "m1" (request "initialize" .null)), .message .control (ask "m2" (setBps "a.py" [3])),
   .message .shell (wireOf (reqFrom "b" "m3" "execute_request" (.obj [(lit "code", .str (lit "1"))]))), .event (event "stopped" 5),
   .message .shell (ask "m4" (setBps "a.py" [4, 6]))]

theorem session_view : ((receive sampleEnv sampleInterp debugger begin session).map fun w =>
    (w.st.2.started, w.st.2.breakpoints, w.st.2.threads, (repliesIn w.out).length)) =
      some (true, [(lit "a.py", lines [4, 6])], [5], 4) := by decide +kernel

theorem session_debugged : ∃ w, Debugged sampleEnv sampleInterp debugger begin session w ∧ w.st.2.started = true ∧
    w.st.2.breakpoints = [(lit "a.py", lines [4, 6])] ∧ w.st.2.threads = [5] := by
  obtain ⟨w, h1, h2⟩ := Option.map_eq_some_iff.1 session_view
  simp only [Prod.mk.injEq] at h2
  exact ⟨w, by simpa using receive_debugged .start h1, h2.1, h2.2.1, h2.2.2.1⟩

theorem info_ok : InfoOk ⟨7, lit "/tmp/", lit ".py", true, [lit "a"]⟩ :=
  ⟨by decide, utf8_lit (by decide +kernel), utf8_lit (by decide +kernel), fun p hp => by
    rw [List.mem_singleton] at hp; rw [hp]; exact utf8_lit (by decide +kernel)⟩

/-- The servers at the beginning. -/
def starting : Start (Nat × Dbg.State Nat) := Start.fresh begin.st

def mainTurns : List Main.Choice :=
  [.control (ask "m1" (request "initialize" .null))] ++ List.replicate 60 .main ++ [.control (ask "m2" (setBps "a.py" [3]))] ++
  List.replicate 60 .main

/-- The default server after two debug requests. -/
def served₂ : Main (Nat × Dbg.State Nat) := mainTurns.foldl (Main.choose sampleEnv (debugKernel sampleInterp debugger)) (Main.init starting)

theorem idle_of {s : Main τ} (h : (match s.pc with | .control _ => false | .shell => false | _ => true) = true) : Idle s :=
  ⟨fun rs hr => by simp [hr] at h, fun hr => by simp [hr] at h⟩

def splitTurns : List Split.Choice :=
  [.toControl (ask "m1" (request "initialize" .null))] ++ List.replicate 60 .control ++ [.toControl (ask "m2" (setBps "a.py" [3]))] ++
  List.replicate 60 .control

/-- A split server after them. -/
def split₂ : Duo (Nat × Dbg.State Nat) := splitTurns.foldl (Duo.choose sampleEnv (debugKernel sampleInterp debugger)) (Duo.init starting)

end Debugging

/-! ## C111: debug requests -/

/-- C111: an accepted debug request, on any channel and in any state, is handed to the debugger once, with its header and content.  What the debugger
answers is sent back as it is, as the content of a `debug_reply` (unless it cannot be printed); if the debugger throws a `std::exception` there
is no reply; other exceptions, undefined behaviour and waiting for ever are those of the kernel.  Nothing else happens but `busy` and `idle`, and
nothing else changes but the state of the debugger. -/
theorem C111_request (env : Env) (hs : Sane env) (I : Interp τ) (d : Dbg.Debugger ρ) (q : Multipart) (m : XMessage) (c : Chan)
    (ha : Accepted env.C env.J env.auth q m) (hr : IsReq m .debug) (w : World (τ × Dbg.State ρ)) :
    (∀ j s, (Dbg.processRequest d m.body.header m.body.content).run w.st.2 = (.ok j, s) →
      DebugReplied env m c w j s ((dispatch env (debugKernel I d) q c).run w) ∨
      (¬ Printable env.eh j ∧ DebugServed env m c w [] s ((dispatch env (debugKernel I d) q c).run w))) ∧
    (∀ e s, (Dbg.processRequest d m.body.header m.body.content).run w.st.2 = (.exc e, s) → e.isStd = true →
      DebugServed env m c w [.threw e] s ((dispatch env (debugKernel I d) q c).run w)) ∧
    (∀ e s, (Dbg.processRequest d m.body.header m.body.content).run w.st.2 = (.exc e, s) → e.isStd = false →
      ((dispatch env (debugKernel I d) q c).run w).1 = .exc e) ∧
    (∀ y s, (Dbg.processRequest d m.body.header m.body.content).run w.st.2 = (.ub y, s) →
      ((dispatch env (debugKernel I d) q c).run w).1 = .ub y) ∧
    (∀ s, (Dbg.processRequest d m.body.header m.body.content).run w.st.2 = (.hang, s) →
      ((dispatch env (debugKernel I d) q c).run w).1 = .hang) := by
  obtain ⟨_, _, h⟩ := debug_course' I hs (d := d) c ha hr w
  exact h

/-- A request to start, and one that fails (it has no command): the debugger reads `command` of a constant object. -/
example : Accepted sampleEnv.C sampleEnv.J sampleEnv.auth (Debugging.ask "m1" (Dbg.Sample.request "initialize" .null))
      (reqFrom "a" "m1" "debug_request" (Dbg.Sample.request "initialize" .null)) ∧
    IsReq (reqFrom "a" "m1" "debug_request" (Dbg.Sample.request "initialize" .null)) .debug ∧
    ((Dbg.processRequest Dbg.Sample.debugger .null (Dbg.Sample.request "initialize" .null)).run Debugging.begin.st.2).1 =
      .ok (.obj [(lit "success", .bool true)]) ∧
    ((Dbg.processRequest Dbg.Sample.debugger .null (.obj [(lit "command", .int 1)])).run Debugging.begin.st.2).1 = .exc .typeError :=
  ⟨sample_accepted (by decide +kernel), by unfold IsReq; decide +kernel, by decide +kernel, by decide +kernel⟩

/-- C111: every other message leaves the debugger alone, whatever becomes of it. -/
theorem C111_other (env : Env) (I : Interp τ) (d : Dbg.Debugger ρ) (q : Multipart) (c : Chan)
    (hn : ∀ m, Accepted env.C env.J env.auth q m → ¬ IsReq m .debug) (w : World (τ × Dbg.State ρ)) :
    ((dispatch env (debugKernel I d) q c).run w).2.st.2 = w.st.2 :=
  apart_dispatch env I d q c hn w

/-- An execution. -/
example : ∀ m, Accepted sampleEnv.C sampleEnv.J sampleEnv.auth
    (wireOf (reqFrom "b" "m3" "execute_request" (.obj [(lit "code", .str (lit "1"))]))) m → ¬ IsReq m .debug := by
  intro m hm
  rw [accepted_unique hm (sample_accepted (m := reqFrom "b" "m3" "execute_request" (.obj [(lit "code", .str (lit "1"))])) (by decide +kernel))]
  unfold IsReq
  decide +kernel

/-! ## C111: sessions -/

/-- C111: over any session, what happened to the debugger is a history of calls (as in C59 to C64): one call for each accepted debug request and each
event, in the order in which these were handled. -/
theorem C111_session (env : Env) (hs : Sane env) (I : Interp τ) (d : Dbg.Debugger ρ) (w₀ w : World (τ × Dbg.State ρ)) (l : List Received)
    (h : Debugged env I d w₀ l w) : ∃ steps, Dbg.Hist d w₀.st.2 steps w.st.2 ∧ DebugCalls env l (steps.map (·.call)) :=
  debugged_hist I hs h

/-- In the sample session the debugger was called four times. -/
example : ∃ w steps, Debugged sampleEnv sampleInterp Dbg.Sample.debugger Debugging.begin Debugging.session w ∧
    Dbg.Hist Dbg.Sample.debugger Debugging.begin.st.2 steps w.st.2 ∧ DebugCalls sampleEnv Debugging.session (steps.map (·.call)) ∧
    w.st.2.threads = [5] := by
  obtain ⟨w, h, _, _, ht⟩ := Debugging.session_debugged
  obtain ⟨steps, h1, h2⟩ := C111_session sampleEnv sampleEnv_sane sampleInterp Dbg.Sample.debugger _ w _ h
  exact ⟨w, steps, h, h1, h2, ht⟩

/-- C111: at the end of any session, a debugInfo request is answered, and the reply tells the client whether the debugger runs, the breakpoints set
by the last setBreakpoints request for each source since the last disconnection, and the threads of which the last event since then says that they stopped. -/
theorem C111_info (env : Env) (hs : Sane env) (I : Interp τ) (d : Dbg.Debugger ρ) (he : Dbg.Spec.Extends d) (hl : Dbg.Spec.Local d) (st : ρ)
    (files : Str → Option Str) (replies acks : List Str) (w₀ w : World (τ × Dbg.State ρ)) (h₀ : w₀.st.2 = Dbg.initial st files replies acks)
    (l : List Received) (h : Debugged env I d w₀ l w) (q : Multipart) (m : XMessage) (c : Chan) (ha : Accepted env.C env.J env.auth q m)
    (hr : IsReq m .debug) (seq : Json) (hm : Dbg.Spec.DebugInfo m.body.content seq) (i : Dbg.Info) (hi : d.info w.st.2.st = .ok i) (hok : InfoOk i) :
    ∃ steps answer, DebugCalls env l (steps.map (·.call)) ∧ Dbg.Hist d w₀.st.2 steps w.st.2 ∧
      DebugReplied env m c w answer w.st.2 ((dispatch env (debugKernel I d) q c).run w) ∧ InfoTells d.J steps w.st.2.out answer := by
  obtain ⟨steps, h1, h2⟩ := debugged_hist I hs h
  have h1' := h1
  rw [h₀] at h1'
  have hrun := Dbg.run_debugInfo he (header := m.body.header) hm hi
  obtain ⟨_, b, r1, hb⟩ := Dbg.C59_report hl he h1' (header := m.body.header) hm hi
  obtain ⟨_, lb, r2, hlb⟩ := Dbg.C60_breakpoints he h1' (header := m.body.header) hm hi
  obtain ⟨_, lt, r3, hlt⟩ := Dbg.C61_threads he h1' (header := m.body.header) hm hi
  rw [hrun] at r1 r2 r3
  simp only [Prod.mk.injEq, Res.ok.injEq, and_true] at r1 r2 r3
  subst r1 r2 r3
  have hp : Parsed m.body.content := (accepted_parsed hs ha).2.2.2
  refine ⟨steps, _, h2, h1, ?_, ⟨b, hb⟩, ⟨lb, hlb⟩, lt, hlt⟩
  rcases (C111_request env hs I d q m c ha hr w).1 _ _ hrun with h | ⟨hn, _⟩
  · exact h
  · exact absurd (Parsed.printable (info_parsed he h1' (debugCalls_parsed hs h2) hok (Parsed.at hm.seq hp)) env.eh) hn

/-- After the sample session, the reply says that a breakpoint is set in `a.py` at the lines 4 and 6, and that thread 5 is stopped. -/
example : ∃ w steps answer, Debugged sampleEnv sampleInterp Dbg.Sample.debugger Debugging.begin Debugging.session w ∧
    DebugReplied sampleEnv (reqFrom "a" "m9" "debug_request" (Dbg.Sample.request "debugInfo" .null)) .control w answer w.st.2
      ((dispatch sampleEnv (debugKernel sampleInterp Dbg.Sample.debugger) (Debugging.ask "m9" (Dbg.Sample.request "debugInfo" .null)) .control).run w) ∧
    InfoTells Dbg.Sample.debugger.J steps w.st.2.out answer ∧
    Dbg.Spec.LastSet Dbg.Sample.debugger.J steps (lit "a.py") [.obj [(lit "line", .int 4)], .obj [(lit "line", .int 6)]] ∧
    Dbg.Spec.LastStopped steps 5 := by
  obtain ⟨w, h, _, hb, ht⟩ := Debugging.session_debugged
  obtain ⟨steps, answer, _, h2, h3, h4⟩ := C111_info sampleEnv sampleEnv_sane sampleInterp Dbg.Sample.debugger Dbg.Sample.debugger_extends
    Dbg.Sample.debugger_local 0 Dbg.Sample.noFiles _ _ Debugging.begin w rfl _ h (Debugging.ask "m9" (Dbg.Sample.request "debugInfo" .null))
    (reqFrom "a" "m9" "debug_request" (Dbg.Sample.request "debugInfo" .null)) .control (sample_accepted (by decide +kernel))
    (by unfold IsReq; decide +kernel) (.int 12) ⟨.member (by decide +kernel) .here, .member (by decide +kernel) .here⟩ _ rfl Debugging.info_ok
  have inv := Dbg.hist_records Dbg.Sample.debugger_extends (h2 : Dbg.Hist _ (Dbg.initial 0 Dbg.Sample.noFiles _ _) steps _)
  refine ⟨w, steps, answer, h, h3, h4, (inv.bps _ _).1 ?_, (inv.thr 5).1 (by rw [ht]; simp)⟩
  rw [hb]
  decide +kernel

/-! ## C111: servers -/

theorem serial_debugged {env : Env} {I : Interp τ} {d : Dbg.Debugger ρ} {st : Start (τ × Dbg.State ρ)} {hs : List (Chan × Multipart)}
    {as : List Multipart} {w : World (τ × Dbg.State ρ)} (h : Serial env (debugKernel I d) st hs as w) :
    Debugged env I d st.w (asReceived hs) w := by
  induction h with
  | start => exact .start
  | arrive A B _ ih => exact .sockets _ _ ih
  | @shell hs as w w' q r _ _ hq hd ih =>
    have := Debugged.message .shell q (.sockets r w.stdinQ ih) hd
    simpa [asReceived] using this
  | control q _ _ hd ih => simpa [asReceived] using Debugged.message .control q ih hd

theorem sends_asProg {S α : Type} {P : Json → Prop} (p : K S α) : Sends P (p.asProg : Prog (τ × S) DOp α) := by
  induction p with
  | done r => cases r <;> trivial
  | act f k ih =>
    intro x
    show Sends P (afterAccess _ _)
    cases (f x.2).1 with
    | ok b => exact ih _
    | exc e => exact ih _
    | ub y => trivial
    | hang => trivial

theorem debugKernel_sends (I : Interp τ) (d : Dbg.Debugger ρ) : SendsValues (debugKernel I d) := by
  intro d' hd header content _ _
  obtain rfl := Option.some.inj hd
  exact sends_asProg _

/-- C111: whenever the default server, with this kernel, is handling no message, what it has done is such a session, of the messages it has handled. -/
theorem C111_server (env : Env) (I : Interp τ) (d : Dbg.Debugger ρ) (st : Start (τ × Dbg.State ρ)) (s : Main (τ × Dbg.State ρ))
    (h : Main.Reach env (debugKernel I d) st s) (hi : Idle s) : Debugged env I d st.w (asReceived (handledIn s.log)) s.c.w :=
  serial_debugged (C78_serial env _ st s h hi)

/-- Two debug requests. -/
example : Main.Reach sampleEnv (debugKernel sampleInterp Dbg.Sample.debugger) Debugging.starting Debugging.served₂ ∧ Idle Debugging.served₂ ∧
    (handledIn Debugging.served₂.log).length = 2 ∧ Debugging.served₂.c.w.st.2.breakpoints = [(lit "a.py", Dbg.Sample.lines [3])] :=
  ⟨Main.reach_choose _, Debugging.idle_of (by decide +kernel), by decide +kernel, by decide +kernel⟩

/-- C111: the same of the split servers as long as their threads take turns. -/
theorem C111_split (env : Env) (hs : Sane env) (I : Interp τ) (d : Dbg.Debugger ρ) (st : Start (τ × Dbg.State ρ)) (s : Duo (τ × Dbg.State ρ))
    (h : InTurn env (debugKernel I d) st s) (hi : ∀ t, Between s t) :
    Debugged env I d st.w (asReceived (handledIn (served s.log))) s.w :=
  serial_debugged (C107_serial env hs _ (debugKernel_sends I d) st s h hi)

/-- C111: as long as clients use the control channel only, and stop neither server, their debug requests are handled by the split servers too as
described. -/
theorem C111_control (env : Env) (hs : Sane env) (I : Interp τ) (d : Dbg.Debugger ρ) (st : Start (τ × Dbg.State ρ)) (s : Duo (τ × Dbg.State ρ))
    (h : Duo.Reach env (debugKernel I d) st s) (hc : ∀ x ∈ handledIn (served s.log), x.1 = .control) (hn : ¬ stopAsked s.w)
    (hi : ∀ t, Between s t) : Debugged env I d st.w (asReceived (handledIn (served s.log))) s.w :=
  C111_split env hs I d st s (C107_one_channel env hs _ (debugKernel_sends I d) st s h .control hc hn) hi

/-- Two debug requests on the control channel. -/
example : Duo.Reach sampleEnv (debugKernel sampleInterp Dbg.Sample.debugger) Debugging.starting Debugging.split₂ ∧ (∀ t, Between Debugging.split₂ t) ∧
    (∀ x ∈ handledIn (served Debugging.split₂.log), x.1 = .control) ∧ ¬ stopAsked Debugging.split₂.w ∧
    (handledIn (served Debugging.split₂.log)).length = 2 ∧ Debugging.split₂.w.st.2.breakpoints = [(lit "a.py", Dbg.Sample.lines [3])] :=
  ⟨Duo.reach_choose _, fun t => Duo.rest_ok (by cases t <;> decide +kernel), by
    have : ∀ x ∈ (handledIn (served Debugging.split₂.log)).map (·.1), x = .control := by decide +kernel
    exact fun x hx => this _ (List.mem_map_of_mem hx), by unfold stopAsked; decide +kernel, by decide +kernel, by decide +kernel⟩

/-- The threads of that server have taken turns. -/
example : InTurn sampleEnv (debugKernel sampleInterp Dbg.Sample.debugger) Debugging.starting Debugging.split₂ ∧ (∀ t, Between Debugging.split₂ t) :=
  ⟨C107_one_channel sampleEnv sampleEnv_sane _ (debugKernel_sends _ _) _ _ (Duo.reach_choose _) .control (by
    have : ∀ x ∈ (handledIn (served Debugging.split₂.log)).map (·.1), x = .control := by decide +kernel
    exact fun x hx => this _ (List.mem_map_of_mem hx)) (by unfold stopAsked; decide +kernel),
   fun t => Duo.rest_ok (by cases t <;> decide +kernel)⟩

end Xeus
