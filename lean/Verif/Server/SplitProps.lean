import Verif.Server.SplitEnd
import Verif.Server.Props

/-!
# The split servers: the properties
-/

namespace Xeus

open Spec K

variable {σ : Type}

namespace Split

/-! ## Schedules used in the examples -/

/-- What happens next. -/
inductive Choice where
  | toShell (q : Multipart) | toControl (q : Multipart) | control | shell | pub | hb

/-- The next step of the publisher. -/
def pubNext (a : Relay Chan) : Relay Chan :=
  match a.pc with
  | .poll => { a with pc := .sampled (a.inq .shell ≠ [] ∨ a.inq .control ≠ []) }
  | .sampled r0 => if r0 = true ∨ a.ctl = true then { a with pc := .ready r0 a.ctl } else { a with pc := .poll }
  | .ready true r1 => match a.inq .shell with
    | m :: r => { a with pc := .hold .shell m r1, inq := Relay.upd a.inq .shell r }
    | [] => match a.inq .control with
      | m :: r => { a with pc := .hold .control m r1, inq := Relay.upd a.inq .control r }
      | [] => a
  | .ready false r1 => { a with pc := .asked r1 }
  | .hold i m r1 => { a with pc := .asked r1, passed := a.passed ++ [(i, m)] }
  | .asked false => { a with pc := .poll }
  | .asked true => { a with pc := .echo, ctl := false }
  | .echo => { a with pc := .over, ack := true }
  | .over => a

/-- The next step of the control thread, no publication being dropped. -/
def controlNext (env : Env) (I : Interp σ) (s : Split σ) : Split σ :=
  match s.kpc with
  | .entry => { s with kpc := .loop, flag := false, log := s.log ++ [.began] }
  | .loop => if s.flag = true then { s with kpc := .stopSh } else { s with kpc := .recv }
  | .recv => match s.c.controlQ with
    | q :: r => { s with
        c := { s.c with controlQ := r, prog := setProg s.c .control (dispatch env I q .control),
                        log := s.c.log ++ [.took .control q] }
        kpc := .busy, log := s.log ++ [.act (.took .control q)] }
    | [] => s
  | .busy => match (s.c.prog .control).step s.c.w with
    | some (p, w') => s.work .control p w' (fun k => pubsOn k (w'.out.drop s.c.w.out.length))
    | none => match s.c.prog .control with
      | .done (.ok ()) => { s with kpc := .loop }
      | _ => s
  | .stopSh => { s with kpc := .waitSh, ctl := true, log := s.log ++ [.sentStop] }
  | .waitSh => if s.ack = true then { s with kpc := .stopPub, ack := false } else s
  | .stopPub => { s with kpc := .waitPub, pub := s.pub.command }
  | .waitPub => if s.pub.ack = true then { s with kpc := .stopHb, pub := s.pub.answered } else s
  | .stopHb => { s with kpc := .waitHb, hb := s.hb.command }
  | .waitHb => if s.hb.ack = true then { s with kpc := .notify, hb := s.hb.answered } else s
  | .notify => { s with kpc := .over, stopped := true }
  | .over => s

/-- The next step of the shell thread, no publication being dropped. -/
def shellNext (env : Env) (I : Interp σ) (s : Split σ) : Split σ :=
  match s.spc with
  | .poll => { s with spc := .sampled (s.c.w.shellQ ≠ []) }
  | .sampled r0 => if r0 = true ∨ s.ctl = true then { s with spc := .ready r0 s.ctl } else { s with spc := .poll }
  | .ready true r1 => match s.c.w.shellQ with
    | q :: r => { s with
        c := { s.c with w := { s.c.w with shellQ := r }, prog := setProg s.c .shell (dispatch env I q .shell),
                        log := s.c.log ++ [.took .shell q] }
        spc := .busy r1, log := s.log ++ [.act (.took .shell q)] }
    | [] => s
  | .ready false r1 => { s with spc := .asked r1 }
  | .busy r1 => match (s.c.prog .shell).step s.c.w with
    | some (p, w') => s.work .shell p w' (fun k => pubsOn k (w'.out.drop s.c.w.out.length))
    | none => match s.c.prog .shell with
      | .done (.ok ()) => { s with spc := .asked r1 }
      | _ => s
  | .asked false => { s with spc := .poll }
  | .asked true => { s with spc := .echo, ctl := false }
  | .echo => { s with spc := .over, ack := true }
  | .over => s

/-- Perform it if possible. -/
def choose (env : Env) (I : Interp σ) (s : Split σ) : Choice → Split σ
  | .toShell q => { s with
      c := { s.c with w := { s.c.w with shellQ := s.c.w.shellQ ++ [q] } }, log := s.log ++ [.arrived .shell q] }
  | .toControl q => { s with c := { s.c with controlQ := s.c.controlQ ++ [q] }, log := s.log ++ [.arrived .control q] }
  | .control => controlNext env I s
  | .shell => shellNext env I s
  | .pub => { s with pub := pubNext s.pub }
  | .hb => { s with hb := Main.hbNext s.hb }

theorem pubNext_ok (a : Relay Chan) : a.Step (pubNext a) ∨ pubNext a = a := by
  unfold pubNext
  split
  · rename_i h
    refine .inl (.sample0 a _ h ?_)
    simp only [decide_eq_true_eq]
    constructor
    · rintro (h | h)
      · exact ⟨_, h⟩
      · exact ⟨_, h⟩
    · rintro ⟨i, h⟩
      cases i with
      | shell => exact .inl h
      | control => exact .inr h
  · rename_i r0 h
    split
    · rename_i h'; exact .inl (.sample1 a r0 h h')
    · rename_i h'
      have h1 : r0 = false := by cases r0 <;> simp_all
      have h2 : a.ctl = false := by cases hc : a.ctl <;> simp_all
      subst h1
      exact .inl (.none a h h2)
  · rename_i r1 h
    split
    · rename_i m r hq; exact .inl (.recv a r1 .shell m r h hq)
    · split
      · rename_i m r hq; exact .inl (.recv a r1 .control m r h hq)
      · exact .inr rfl
  · rename_i r1 h; exact .inl (.skip a r1 h)
  · rename_i i m r1 h; exact .inl (.send a i m r1 h)
  · rename_i h; exact .inl (.again a h)
  · rename_i h; exact .inl (.recvCtl a h)
  · rename_i h; exact .inl (.sendCtl a h)
  · exact .inr rfl

theorem controlNext_ok {env : Env} {I : Interp σ} (s : Split σ) :
    (Step env I .control s (controlNext env I s) ∨ controlNext env I s = s) ∧ (controlNext env I s).hb.inq = s.hb.inq := by
  unfold controlNext
  split
  · rename_i h; exact ⟨.inl (.start s h), rfl⟩
  · rename_i h
    split
    · rename_i h'; exact ⟨.inl (.leave s h h'), rfl⟩
    · rename_i h'; exact ⟨.inl (.test s h (by simpa using h')), rfl⟩
  · rename_i h
    split
    · rename_i q r hq; exact ⟨.inl (.takeControl s q r h hq), rfl⟩
    · exact ⟨.inr rfl, rfl⟩
  · rename_i h
    split
    · rename_i p w' hs; exact ⟨.inl (.workControl s p w' _ h hs (fun _ => List.Sublist.refl _)), rfl⟩
    · split
      · rename_i h'; exact ⟨.inl (.doneControl s h h'), rfl⟩
      · exact ⟨.inr rfl, rfl⟩
  · rename_i h; exact ⟨.inl (.stopSh s h), rfl⟩
  · rename_i h
    split
    · rename_i h'; exact ⟨.inl (.waitSh s h h'), rfl⟩
    · exact ⟨.inr rfl, rfl⟩
  · rename_i h; exact ⟨.inl (.stopPub s h), rfl⟩
  · rename_i h
    split
    · rename_i h'; exact ⟨.inl (.waitPub s h h'), rfl⟩
    · exact ⟨.inr rfl, rfl⟩
  · rename_i h; exact ⟨.inl (.stopHb s h), rfl⟩
  · rename_i h
    split
    · rename_i h'; exact ⟨.inl (.waitHb s h h'), rfl⟩
    · exact ⟨.inr rfl, rfl⟩
  · rename_i h; exact ⟨.inl (.notify s h), rfl⟩
  · exact ⟨.inr rfl, rfl⟩

theorem shellNext_ok {env : Env} {I : Interp σ} (s : Split σ) :
    (Step env I .shell s (shellNext env I s) ∨ shellNext env I s = s) ∧ (shellNext env I s).hb.inq = s.hb.inq := by
  unfold shellNext
  split
  · rename_i h; exact ⟨.inl (.sample0 s _ h (by simp)), rfl⟩
  · rename_i r0 h
    split
    · rename_i h'; exact ⟨.inl (.sample1 s r0 h h'), rfl⟩
    · rename_i h'
      have h1 : r0 = false := by cases r0 <;> simp_all
      have h2 : s.ctl = false := by cases hc : s.ctl <;> simp_all
      subst h1
      exact ⟨.inl (.nothing s h h2), rfl⟩
  · rename_i r1 h
    split
    · rename_i q r hq; exact ⟨.inl (.takeShell s r1 q r h hq), rfl⟩
    · exact ⟨.inr rfl, rfl⟩
  · rename_i r1 h; exact ⟨.inl (.skip s r1 h), rfl⟩
  · rename_i r1 h
    split
    · rename_i p w' hs; exact ⟨.inl (.workShell s r1 p w' _ h hs (fun _ => List.Sublist.refl _)), rfl⟩
    · split
      · rename_i h'; exact ⟨.inl (.doneShell s r1 h h'), rfl⟩
      · exact ⟨.inr rfl, rfl⟩
  · rename_i h; exact ⟨.inl (.again s h), rfl⟩
  · rename_i h; exact ⟨.inl (.recvCtl s h), rfl⟩
  · rename_i h; exact ⟨.inl (.sendCtl s h), rfl⟩
  · exact ⟨.inr rfl, rfl⟩

theorem choose_steps {env : Env} {I : Interp σ} {s₀ s : Split σ} (h : Steps (Step env I) s₀ s) (he : ∀ i, s.hb.inq i = [])
    (c : Choice) : Steps (Step env I) s₀ (choose env I s c) ∧ ∀ i, (choose env I s c).hb.inq i = [] := by
  cases c with
  | toShell q => exact ⟨h.tail (.arriveShell s q), he⟩
  | toControl q => exact ⟨h.tail (.arriveControl s q), he⟩
  | control =>
    obtain ⟨h1 | h1, h2⟩ := controlNext_ok (env := env) (I := I) s
    · exact ⟨h.tail h1, by show ∀ i, (controlNext env I s).hb.inq i = []; rw [h2]; exact he⟩
    · show Steps (Step env I) s₀ (controlNext env I s) ∧ ∀ i, (controlNext env I s).hb.inq i = []
      rw [h1]; exact ⟨h, he⟩
  | shell =>
    obtain ⟨h1 | h1, h2⟩ := shellNext_ok (env := env) (I := I) s
    · exact ⟨h.tail h1, by show ∀ i, (shellNext env I s).hb.inq i = []; rw [h2]; exact he⟩
    · show Steps (Step env I) s₀ (shellNext env I s) ∧ ∀ i, (shellNext env I s).hb.inq i = []
      rw [h1]; exact ⟨h, he⟩
  | pub =>
    rcases pubNext_ok s.pub with h1 | h1
    · exact ⟨h.tail (.publisher s _ h1), he⟩
    · show Steps (Step env I) s₀ { s with pub := pubNext s.pub } ∧ _
      rw [h1]; exact ⟨h, he⟩
  | hb =>
    obtain ⟨h1 | h1, h2⟩ := Main.hbNext_ok s.hb he
    · exact ⟨h.tail (.heartbeat s _ h1), h2⟩
    · show Steps (Step env I) s₀ { s with hb := Main.hbNext s.hb } ∧ ∀ i, (Main.hbNext s.hb).inq i = []
      exact ⟨by rw [h1]; exact h, h2⟩

/-- Any list of choices is a sequence of steps. -/
theorem steps_choose {env : Env} {I : Interp σ} {s₀ : Split σ} (cs : List Choice) (he : ∀ i, s₀.hb.inq i = []) :
    Steps (Step env I) s₀ (cs.foldl (choose env I) s₀) := by
  suffices h : ∀ (s : Split σ), Steps (Step env I) s₀ s → (∀ i, s.hb.inq i = []) →
      Steps (Step env I) s₀ (cs.foldl (choose env I) s) from h _ (.refl _) he
  induction cs with
  | nil => intro s h _; exact h
  | cons c cs ih =>
    intro s h he
    exact ih _ (choose_steps h he c).1 (choose_steps h he c).2

theorem reach_steps {env : Env} {I : Interp σ} {st : Start σ} {s s' : Split σ} (h : Reach env I st s) (h' : Steps (Step env I) s s') :
    Reach env I st s' := by
  induction h' with
  | refl => exact h
  | tail _ hs ih => exact ih.step hs

/-- Any list of choices is a schedule. -/
theorem reach_choose {env : Env} {I : Interp σ} {st : Start σ} (cs : List Choice) :
    Reach env I st (cs.foldl (choose env I) (init st)) := reach_steps .init (steps_choose cs fun _ => rfl)

/-- Two shell messages and a control message are handled at the same time; then a shutdown request arrives on the control
channel while another shell message is waiting; all threads take turns to the end. -/
def dayTurns : List Choice :=
  [.toShell (wireOf (reqFrom "a" "m1" "kernel_info_request" (.obj []))), .toShell (wireOf (reqFrom "a" "m2" "kernel_info_request" (.obj []))),
   .toControl (wireOf (reqFrom "b" "m3" "kernel_info_request" (.obj [])))] ++
  (List.replicate 90 [Choice.control, .shell, .pub]).flatten ++
  [.toControl (wireOf (reqFrom "b" "m4" "shutdown_request" (.obj [(lit "restart", .bool false)]))),
   .toShell (wireOf (reqFrom "a" "m5" "kernel_info_request" (.obj [])))] ++
  List.replicate 60 .control ++ (List.replicate 80 [Choice.shell, .control, .hb]).flatten ++
  (List.replicate 30 [Choice.pub, .hb, .control]).flatten

/-- The state after it. -/
def day : Split Nat := dayTurns.foldl (choose sampleEnv sampleInterp) (init 0)

theorem day_reach : Reach sampleEnv sampleInterp 0 day := reach_choose _

/-- The shell thread has seen the first of two messages when a shutdown request is handled on the control channel. -/
def twoTurns : List Choice :=
  [.toShell (wireOf (reqFrom "a" "m1" "kernel_info_request" (.obj []))), .toShell (wireOf (reqFrom "a" "m2" "kernel_info_request" (.obj []))),
   .toControl (wireOf (reqFrom "b" "m3" "shutdown_request" (.obj [(lit "restart", .bool false)]))), .shell, .shell] ++
  List.replicate 60 .control ++ List.replicate 100 .shell

/-- The state after it. -/
def two : Split Nat := twoTurns.foldl (choose sampleEnv sampleInterp) (init 0)

/-- A shutdown request is handled on the shell channel; no control message arrives. -/
def waitingTurns : List Choice :=
  [.control, .control, .control, .toShell (wireOf (reqFrom "a" "m1" "shutdown_request" (.obj [(lit "restart", .bool false)])))] ++
  List.replicate 60 .shell

/-- The state after it. -/
def waiting : Split Nat := waitingTurns.foldl (choose sampleEnv sampleInterp) (init 0)

/-- Then one arrives, and all threads take turns to the end. -/
def laterTurns : List Choice :=
  [.toControl (wireOf (reqFrom "b" "m2" "kernel_info_request" (.obj [])))] ++ List.replicate 60 .control ++
  (List.replicate 40 [Choice.shell, .pub, .hb, .control]).flatten

/-- The state after it. -/
def later : Split Nat := laterTurns.foldl (choose sampleEnv sampleInterp) waiting

/-- The same, but the control thread enters `run` after the request has been handled; then another control message arrives and
is handled. -/
def lostTurns : List Choice :=
  [.toShell (wireOf (reqFrom "a" "m1" "shutdown_request" (.obj [(lit "restart", .bool false)])))] ++
  List.replicate 60 .shell ++ [.toControl (wireOf (reqFrom "b" "m2" "kernel_info_request" (.obj [])))] ++ List.replicate 60 .control

/-- The state after it. -/
def lost : Split Nat := lostTurns.foldl (choose sampleEnv sampleInterp) (init 0)

/-- The shell thread has seen a message which a failing execute request on the control channel aborts; then a shutdown request
is handled on the control channel. -/
def stuckTurns : List Choice :=
  [.toShell (wireOf (reqFrom "a" "m1" "kernel_info_request" (.obj []))), .shell, .shell,
   .toControl (wireOf (reqFrom "b" "m2" "execute_request" (.obj [(lit "code", .str (lit "1")), (lit "stop_on_error", .bool true)]))),
   .toControl (wireOf (reqFrom "b" "m3" "shutdown_request" (.obj [(lit "restart", .bool false)])))] ++
  List.replicate 160 .control

/-- The state after it. -/
def stuck : Split Nat := stuckTurns.foldl (choose sampleEnv failInterp) (init 0)

end Split

/-! ## C51: the loops and the end -/

/-- C51: the kernel inside the servers is a run of the kernel as described by `CReach`, so that everything proved about those
applies (C32, C52). -/
theorem C51_kernel (env : Env) (I : Interp σ) (st : Start σ) (s : Split σ) (h : Split.Reach env I st s) : CReach env I st s.c :=
  (Split.kinv_reach h).conc

example : ∃ s, Split.Reach sampleEnv sampleInterp 0 s ∧ s.c.w.out.length = 22 := ⟨Split.day, Split.day_reach, by decide +kernel⟩

/-- C51: on each socket messages are received in the order of their arrival, none twice, none lost. -/
theorem C51_order (env : Env) (I : Interp σ) (st : Start σ) (s : Split σ) (h : Split.Reach env I st s) :
    takenFrom .control s.log ++ s.c.controlQ = arrivedOn .control s.log ∧
    takenFrom .shell s.log ++ s.c.w.shellQ = arrivedOn .shell s.log :=
  ⟨(Split.qinv_reach h).control, (Split.qinv_reach h).shell⟩

example : (takenFrom .shell Split.day.log).length = 3 ∧ (arrivedOn .control Split.day.log).length = 2 := by decide +kernel

/-- C51: after a stop request made by the control thread no further control message is handled. -/
theorem C51_control_stop (env : Env) (I : Interp σ) (st : Start σ) (s : Split σ) (h : Split.Reach env I st s) (a b : List SEv)
    (hl : s.log = a ++ .act (.did .control .stop) :: b) : tooks .control b = 0 := by
  have hi := Split.stopinv_reach h
  rcases (hi.stop a .control b hl (hi.did a _ b hl)).2 with ⟨h, _⟩ | ⟨_, h, _⟩
  · exact h
  · cases h

example : ∃ a b, Split.day.log = a ++ .act (.did .control .stop) :: b := by
  have h : SEv.act (.did .control .stop) ∈ Split.day.log := by decide +kernel
  exact List.append_of_mem h

/-- C51: after a stop request made by the shell thread while the control thread is running, at most one control message is
handled. -/
theorem C51_shell_stop (env : Env) (I : Interp σ) (st : Start σ) (s : Split σ) (h : Split.Reach env I st s) (a b : List SEv)
    (hl : s.log = a ++ .act (.did .shell .stop) :: b) (hb : SEv.began ∈ a) : tooks .control b ≤ 1 := by
  rcases ((Split.stopinv_reach h).stop a .shell b hl hb).2 with ⟨h, _⟩ | ⟨h, _⟩ <;> omega

example : ∃ a b, Split.later.log = a ++ .act (.did .shell .stop) :: b ∧ SEv.began ∈ a ∧ tooks .control b = 1 := by
  refine ⟨Split.later.log.take 5, Split.later.log.drop 6, ?_, ?_, ?_⟩ <;> decide +kernel

/-- C51: but as long as none arrives, the control thread goes on waiting, and the server does not end. -/
theorem C51_shell_waits (env : Env) (I : Interp σ) (a : SWho) (s s' : Split σ) (hp : s.kpc = .recv) (hq : s.c.controlQ = [])
    (hs : Split.Step env I a s s') (hn : ∀ q, s'.log ≠ s.log ++ [.arrived .control q]) : s'.kpc = .recv ∧ s'.c.controlQ = [] := by
  cases hs with
  | arriveControl _ q => exact absurd rfl (hn q)
  | start _ h => rw [hp] at h; cases h
  | test _ h _ => rw [hp] at h; cases h
  | leave _ h _ => rw [hp] at h; cases h
  | takeControl _ q r _ h => rw [hq] at h; cases h
  | workControl _ _ _ _ h _ _ => rw [hp] at h; cases h
  | doneControl _ h _ => rw [hp] at h; cases h
  | stopSh _ h => rw [hp] at h; cases h
  | waitSh _ h _ => rw [hp] at h; cases h
  | stopPub _ h => rw [hp] at h; cases h
  | waitPub _ h _ => rw [hp] at h; cases h
  | stopHb _ h => rw [hp] at h; cases h
  | waitHb _ h _ => rw [hp] at h; cases h
  | notify _ h => rw [hp] at h; cases h
  | _ => exact ⟨hp, hq⟩

/-- C51: neither server ends while the control thread is waiting for a message. -/
theorem C51_waiting_runs (env : Env) (I : Interp σ) (st : Start σ) (s : Split σ) (h : Split.Reach env I st s) (hp : s.kpc = .recv) :
    ¬ s.controlMainExits ∧ ¬ s.shellMainExits := by
  have := (Split.rinv_reach h).proto
  unfold Split.Proto at this
  rw [hp] at this
  refine ⟨fun h => ?_, fun h => ?_⟩
  · unfold Split.controlMainExits at h; rw [hp] at h; cases h
  · have h1 := this.2.2.2.1
    rw [h.2] at h1
    cases h1

/-- Finding (C51): this happens after a shutdown request on the shell channel, which has been answered. -/
theorem C51_shell_waits_witness : ∃ s, Split.Reach sampleEnv sampleInterp 0 s ∧ SEv.began ∈ s.log ∧
    SEv.act (.did .shell .stop) ∈ s.log ∧ s.kpc = .recv ∧ s.c.controlQ = [] ∧ s.spc = .poll :=
  ⟨Split.waiting, Split.reach_choose _, by decide +kernel, by decide +kernel, by decide +kernel, by decide +kernel, by decide +kernel⟩

/-- Finding (C51): a stop request made by the shell thread before the control thread enters `run` is lost: a control message is
handled later, and the control thread waits for the next one. -/
theorem C51_lost_witness : ∃ s, Split.Reach sampleEnv sampleInterp 0 s ∧ SEv.act (.did .shell .stop) ∈ s.log ∧
    tooks .control s.log = 1 ∧ s.flag = false ∧ s.kpc = .recv :=
  ⟨Split.lost, Split.reach_choose _, by decide +kernel, by decide +kernel, by decide +kernel, by decide +kernel⟩

/-- C51: after the stop command has been sent to the shell thread, it handles at most two more messages. -/
theorem C51_shell_after (env : Env) (I : Interp σ) (st : Start σ) (s : Split σ) (h : Split.Reach env I st s) (a b : List SEv)
    (hl : s.log = a ++ .sentStop :: b) : tooks .shell b ≤ 2 := by
  have := Split.budget_reach h a b hl
  omega

/-- C51: the bound is sharp. -/
theorem C51_shell_after_sharp : ∃ s, Split.Reach sampleEnv sampleInterp 0 s ∧
    ∃ a b, s.log = a ++ .sentStop :: b ∧ tooks .shell b = 2 := by
  refine ⟨Split.two, Split.reach_choose _, Split.two.log.take 11, Split.two.log.drop 12, ?_, ?_⟩ <;> decide +kernel

/-- C51: when either server calls `std::exit`, the loops of all threads have ended (the control thread of
`xserver_shell_main` has set its flag as its last action). -/
theorem C51_exit (env : Env) (I : Interp σ) (st : Start σ) (s : Split σ) (h : Split.Reach env I st s)
    (he : s.controlMainExits ∨ s.shellMainExits) : s.kpc = .over ∧ s.spc = .over ∧ s.pub.pc = .over ∧ s.hb.pc = .over := by
  have hp := (Split.rinv_reach h).proto
  unfold Split.Proto at hp
  have hk : s.kpc = .over := by
    rcases he with he | ⟨_, he⟩
    · exact he
    · split at hp <;> first | assumption | (rw [he] at hp; obtain ⟨_, _, _, h, _⟩ := hp; cases h)
  rw [hk] at hp
  exact ⟨hk, hp.1.2.2, hp.2.1.2.2, hp.2.2.1.2.2⟩

example : ∃ s, Split.Reach sampleEnv sampleInterp 0 s ∧ s.controlMainExits ∧ s.shellMainExits :=
  ⟨Split.day, Split.day_reach, (by decide +kernel : Split.day.kpc = .over),
    (by decide +kernel : Split.day.spc = .over), (by decide +kernel : Split.day.stopped = true)⟩

/-- C51: after a stop request made while the control thread is running, unless the control thread is waiting in vain for a
message, in every fair execution both servers end, provided that no handler fails and no shell message is aborted by the
control thread. -/
theorem C51_terminates (env : Env) (I : Interp σ) (st : Start σ) (e : Execution (Split.Step env I)) (h0 : e.state 0 = Split.init st)
    (hf : ∀ a, a ≠ SWho.world → Fair e a) (n : Nat) (a b : List SEv) (t : Chan)
    (hl : (e.state n).log = a ++ .act (.did t .stop) :: b) (hb : t = .shell → SEv.began ∈ a)
    (hq : t = .shell → (e.state n).kpc = .recv → (e.state n).c.controlQ ≠ [])
    (hh : ∀ m, n ≤ m → ∀ t r, (e.state m).c.prog t = .done r → r = .ok ())
    (hd : ∀ m, n ≤ m → ∀ q, SEv.act (.drained .control q) ∉ (e.state m).log) :
    ∃ m, n ≤ m ∧ (e.state m).controlMainExits ∧ (e.state m).shellMainExits := by
  have hr := Split.reach_exec e h0
  have hi := Split.stopinv_reach (hr n)
  have hb' : SEv.began ∈ a := by
    cases t with
    | shell => exact hb rfl
    | control => exact hi.did a _ b hl
  obtain ⟨h1, h2⟩ := hi.stop a t b hl hb'
  have hle : Split.Leaving (e.state n) := by
    refine ⟨h1, fun h => hi.entry.1 h (by rw [hl]; exact List.mem_append_left _ hb'), fun hk => ?_⟩
    cases t with
    | shell => exact hq rfl hk
    | control =>
      rcases h2 with ⟨_, h⟩ | ⟨_, h, _⟩
      · exact absurd hk (h rfl)
      · cases h
  obtain ⟨m, hm, hk⟩ := Split.terminates e h0 hf n hle hh hd
  have hp := (Split.rinv_reach (hr m)).proto
  unfold Split.Proto at hp
  rw [hk] at hp
  exact ⟨m, hm, hk, hp.1.2.2, hp.2.2.2.1⟩

theorem Split.over_stuck {env : Env} {I : Interp σ} {s : Split σ} (h1 : s.kpc = .over) (h2 : s.spc = .over) (h3 : s.pub.pc = .over)
    (h4 : s.hb.pc = .over) (a : SWho) (ha : a ≠ .world) : ¬ CanStep (Split.Step env I) a s := by
  rintro ⟨s', hs⟩
  cases hs with
  | publisher _ a h => exact Relay.over_stuck h3 h
  | heartbeat _ a h => exact Relay.over_stuck h4 h
  | _ => simp_all

theorem Split.over_ok {env : Env} {I : Interp σ} {st : Start σ} {s : Split σ} (h : Split.Reach env I st s) (h1 : s.kpc = .over)
    (h2 : s.spc = .over) (t : Chan) (r) (ht : s.c.prog t = .done r) : r = .ok () := by
  have hk := Split.kinv_reach h
  cases t with
  | shell => rw [hk.idleS (by rw [h2]; simp)] at ht; injection ht with ht; exact ht.symm
  | control => rw [hk.idleC (by rw [h1]; simp)] at ht; injection ht with ht; exact ht.symm

/-- A fair execution with a stop request of either thread (the one of the shell thread is followed by another control
message). -/
theorem Split.fair_example (s : Split Nat) (h : Steps (Split.Step sampleEnv sampleInterp) (Split.init 0) s) (h1 : s.kpc = .over)
    (h2 : s.spc = .over) (h3 : s.pub.pc = .over) (h4 : s.hb.pc = .over) (h5 : s.log.all fun x => match x with | .act (.drained .control _) => false | _ => true) :
    ∃ (e : Execution (Split.Step sampleEnv sampleInterp)) (n : Nat), e.state 0 = Split.init 0 ∧
    (∀ a, a ≠ SWho.world → Fair e a) ∧ e.state n = s ∧
    (∀ m, n ≤ m → ∀ t r, (e.state m).c.prog t = .done r → r = .ok ()) ∧
    (∀ m, n ≤ m → ∀ q, SEv.act (.drained .control q) ∉ (e.state m).log) := by
  obtain ⟨e, N, h0, hN⟩ := exec_of_steps h
  refine ⟨e, N, h0, fun a ha => fair_of_end e hN (Split.over_stuck h1 h2 h3 h4 a ha), hN N (Nat.le_refl _), ?_, ?_⟩
  · intro m hm t r
    rw [hN m hm]
    exact Split.over_ok (Split.reach_steps .init h) h1 h2 t r
  · intro m hm q hq
    rw [hN m hm] at hq
    have := List.all_eq_true.1 h5 _ hq
    cases this

example : ∃ (e : Execution (Split.Step sampleEnv sampleInterp)) (n : Nat), e.state 0 = Split.init 0 ∧
    (∀ a, a ≠ SWho.world → Fair e a) ∧ (∃ a b, (e.state n).log = a ++ .act (.did .control .stop) :: b) ∧
    (∀ m, n ≤ m → ∀ t r, (e.state m).c.prog t = .done r → r = .ok ()) ∧
    (∀ m, n ≤ m → ∀ q, SEv.act (.drained .control q) ∉ (e.state m).log) := by
  obtain ⟨e, n, h0, h1, h2, h3, h4⟩ := Split.fair_example Split.day (Split.steps_choose _ fun _ => rfl) (by decide +kernel) (by decide +kernel)
    (by decide +kernel) (by decide +kernel) (by decide +kernel)
  have h : SEv.act (.did .control .stop) ∈ Split.day.log := by decide +kernel
  exact ⟨e, n, h0, h1, by rw [h2]; exact List.append_of_mem h, h3, h4⟩

/-- C51: without the last condition of `C51_terminates` there is a deadlock: while the control thread waits for the answer of
the shell thread, and that for a message it saw and that was aborted by the control thread, no thread can take a step, until a shell
message arrives. -/
theorem C51_stuck (env : Env) (I : Interp σ) (a : SWho) (s s' : Split σ) (r1 : Bool) (hp : s.kpc = .waitSh) (hk : s.ack = false)
    (hr : s.spc = .ready true r1) (hq : s.c.w.shellQ = []) (hs : Split.Step env I a s s')
    (hn : ∀ q, s'.log ≠ s.log ++ [.arrived .shell q]) :
    s'.kpc = .waitSh ∧ s'.ack = false ∧ s'.spc = .ready true r1 ∧ s'.c.w.shellQ = [] ∧ a ≠ .control ∧ a ≠ .shell := by
  cases hs with
  | arriveShell _ q => exact absurd rfl (hn q)
  | arriveControl _ q => exact ⟨hp, hk, hr, hq, by simp, by simp⟩
  | arriveStdin _ q => exact ⟨hp, hk, hr, hq, by simp, by simp⟩
  | ping _ i m => exact ⟨hp, hk, hr, hq, by simp, by simp⟩
  | publisher _ b _ => exact ⟨hp, hk, hr, hq, by simp, by simp⟩
  | heartbeat _ b _ => exact ⟨hp, hk, hr, hq, by simp, by simp⟩
  | waitSh _ _ h => rw [hk] at h; cases h
  | takeShell _ _ q r _ h => rw [hq] at h; cases h
  | _ => simp_all

/-- Finding (C51): this happens. -/
theorem C51_stuck_witness : ∃ s, Split.Reach sampleEnv failInterp 0 s ∧ SEv.act (.did .control .stop) ∈ s.log ∧
    s.kpc = .waitSh ∧ s.ack = false ∧ s.spc = .ready true false ∧ s.c.w.shellQ = [] :=
  ⟨Split.stuck, Split.reach_choose _, by decide +kernel, by decide +kernel, by decide +kernel, by decide +kernel, by decide +kernel⟩

/-! ## C48, C49: publisher and heartbeat in the split servers -/

/-- C48 for the split servers: of what is published through the socket of each thread that socket keeps a subsequence (everything if
it drops nothing), and what the publisher thread has passed on of it, what it has in hand and what is waiting make up exactly
that, in this order. -/
theorem C48_split (env : Env) (I : Interp σ) (st : Start σ) (s : Split σ) (h : Split.Reach env I st s) (k : Chan) :
    (s.pub.passedOf k ++ s.pub.held k ++ s.pub.inq k).Sublist (wiresOn k s.c.w.out) ∧
    (s.dropped k = 0 → s.pub.passedOf k ++ s.pub.held k ++ s.pub.inq k = wiresOn k s.c.w.out) := by
  rw [wiresOn_eq]
  have hr := Split.rinv_reach h
  rw [← hr.pubCounted k]
  refine ⟨hr.sub k, fun hd => ?_⟩
  exact (hr.sub k).eq_of_length (by have := hr.len k; omega)

/-- C48: what is passed on, in any order, comes from these two sockets, and every publication belongs to exactly one. -/
theorem C48_split_sources (s : Split σ) (out : List Ev) :
    (s.pub.passedOf .shell).length + (s.pub.passedOf .control).length = s.pub.passed.length ∧
    (wiresOn .shell out).length + (wiresOn .control out).length = (wiresOf out).length := by
  rw [wiresOn_eq, wiresOn_eq, wiresOf_eq]
  refine ⟨?_, ?_⟩
  · unfold Relay.passedOf
    rw [List.length_map, List.length_map]
    induction s.pub.passed with
    | nil => rfl
    | cons x l ih =>
      obtain ⟨i, m⟩ := x
      cases i <;> simp <;> omega
  · induction out with
    | nil => rfl
    | cons x l ih =>
      cases x with
      | pub c m w =>
        simp only [pubsOn, pubsOf]
        cases c <;> simp [publishSocket] <;> omega
      | _ => simpa only [pubsOn, pubsOf] using ih

example : (∀ k, Split.day.dropped k = 0) ∧ (Split.day.pub.passedOf .shell).length = 5 ∧ (wiresOn .shell Split.day.c.w.out).length = 6 ∧
    (Split.day.pub.passedOf .control).length = 2 ∧ (wiresOn .control Split.day.c.w.out).length = 5 := by
  refine ⟨fun k => ?_, ?_⟩
  · cases k <;> decide +kernel
  · decide +kernel

/-- C49 for the split servers: what was sent back to a client, what is in hand and what is waiting make up exactly what the client
sent, in this order. -/
theorem C49_split (env : Env) (I : Interp σ) (st : Start σ) (s : Split σ) (h : Split.Reach env I st s) (i : Nat) :
    s.hb.given i = s.hb.passedOf i ++ s.hb.held i ++ s.hb.inq i := (Split.rinv_reach h).hbCounted i

example : ∃ s, Split.Reach sampleEnv sampleInterp 0 s ∧ s.hb.given 7 = [[[1, 2]]] ∧ s.hb.passedOf 7 = [[[1, 2]]] := by
  have h1 := (Split.Reach.init (env := sampleEnv) (I := sampleInterp) (st := 0)).step (.ping _ 7 [[1, 2]])
  have h2 := h1.step (.heartbeat _ _ (.sample0 _ true rfl (by simpa using ⟨7, by decide⟩)))
  have h3 := h2.step (.heartbeat _ _ (.sample1 _ true rfl (.inl rfl)))
  have h4 := h3.step (.heartbeat _ _ (.recv _ false 7 [[1, 2]] [] rfl rfl))
  have h5 := h4.step (.heartbeat _ _ (.send _ 7 [[1, 2]] false rfl))
  exact ⟨_, h5, by decide, by decide⟩

end Xeus
