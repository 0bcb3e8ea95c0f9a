import Verif.Server.Channels
import Verif.Server.Published
import Verif.KernelConc.Props

/-!
# The default server: the properties
-/

namespace Xeus

open Spec K

variable {σ : Type}

/-! ## A schedule used in the examples -/

instance (w : World σ) : Decidable (stopAsked w) := inferInstanceAs (Decidable (Ev.stop ∈ w.out))

namespace Main

/-- What happens next. -/
inductive Choice where
  | shell (q : Multipart) | control (q : Multipart) | main | pub | hb

/-- The next step of the publisher. -/
def pubNext (a : Relay Unit) : Relay Unit :=
  match a.pc with
  | .poll => { a with pc := .sampled (a.inq () ≠ []) }
  | .sampled r0 => if r0 = true ∨ a.ctl = true then { a with pc := .ready r0 a.ctl } else { a with pc := .poll }
  | .ready true r1 => match a.inq () with
    | m :: r => { a with pc := .hold () m r1, inq := Relay.upd a.inq () r }
    | [] => a
  | .ready false r1 => { a with pc := .asked r1 }
  | .hold i m r1 => { a with pc := .asked r1, passed := a.passed ++ [(i, m)] }
  | .asked false => { a with pc := .poll }
  | .asked true => { a with pc := .echo, ctl := false }
  | .echo => { a with pc := .over, ack := true }
  | .over => a

/-- The next step of the heartbeat when there are no pings. -/
def hbNext (a : Relay Nat) : Relay Nat :=
  match a.pc with
  | .poll => { a with pc := .sampled false }
  | .sampled r0 => if r0 = true ∨ a.ctl = true then { a with pc := .ready r0 a.ctl } else { a with pc := .poll }
  | .ready false r1 => { a with pc := .asked r1 }
  | .asked false => { a with pc := .poll }
  | .asked true => { a with pc := .echo, ctl := false }
  | .echo => { a with pc := .over, ack := true }
  | _ => a

/-- The next step of the main thread, no publication being dropped. -/
def mainNext (env : Env) (I : Interp σ) (s : Main σ) : Main σ :=
  match s.pc with
  | .loop => if stopAsked s.c.w then { s with pc := .stopPub } else { s with pc := .polling, log := s.log ++ [.poll] }
  | .polling => { s with pc := .sampled (s.c.controlQ ≠ []) }
  | .sampled rc => if rc = true ∨ s.c.w.shellQ ≠ [] then { s with pc := .polled rc (s.c.w.shellQ ≠ []) } else { s with pc := .polling }
  | .polled true rs => match s.c.controlQ with
    | q :: r => { s with
        c := { s.c with controlQ := r, prog := setProg s.c .control (dispatch env I q .control),
                        log := s.c.log ++ [.took .control q] }
        pc := .control rs, log := s.log ++ [.act (.took .control q)] }
    | [] => s
  | .polled false rs => { s with pc := .between rs }
  | .control rs => match (s.c.prog .control).step s.c.w with
    | some (p, w') => s.work .control p w' (pubsOf (w'.out.drop s.c.w.out.length))
    | none => match s.c.prog .control with
      | .done (.ok ()) => { s with pc := .between rs }
      | _ => s
  | .between rs => if rs = true ∧ ¬ stopAsked s.c.w then { s with pc := .recv } else { s with pc := .loop }
  | .recv => match s.c.w.shellQ with
    | q :: r => { s with
        c := { s.c with w := { s.c.w with shellQ := r }, prog := setProg s.c .shell (dispatch env I q .shell),
                        log := s.c.log ++ [.took .shell q] }
        pc := .shell, log := s.log ++ [.act (.took .shell q)] }
    | [] => s
  | .shell => match (s.c.prog .shell).step s.c.w with
    | some (p, w') => s.work .shell p w' (pubsOf (w'.out.drop s.c.w.out.length))
    | none => match s.c.prog .shell with
      | .done (.ok ()) => { s with pc := .loop }
      | _ => s
  | .stopPub => { s with pc := .waitPub, pub := s.pub.command }
  | .waitPub => if s.pub.ack = true then { s with pc := .stopHb, pub := s.pub.answered } else s
  | .stopHb => { s with pc := .waitHb, hb := s.hb.command }
  | .waitHb => if s.hb.ack = true then { s with pc := .exited, hb := s.hb.answered } else s
  | .exited => s

/-- Perform it if possible. -/
def choose (env : Env) (I : Interp σ) (s : Main σ) : Choice → Main σ
  | .shell q => { s with
      c := { s.c with w := { s.c.w with shellQ := s.c.w.shellQ ++ [q] } }, log := s.log ++ [.arrived .shell q] }
  | .control q => { s with c := { s.c with controlQ := s.c.controlQ ++ [q] }, log := s.log ++ [.arrived .control q] }
  | .main => mainNext env I s
  | .pub => { s with pub := pubNext s.pub }
  | .hb => { s with hb := hbNext s.hb }

theorem pubNext_ok (a : Relay Unit) : a.Step (pubNext a) ∨ pubNext a = a := by
  unfold pubNext
  split
  · rename_i h
    refine .inl (.sample0 a _ h ?_)
    simp only [decide_eq_true_eq]
    exact ⟨fun h => ⟨(), h⟩, fun ⟨_, h⟩ => h⟩
  · rename_i r0 h
    split
    · rename_i h'; exact .inl (.sample1 a r0 h h')
    · rename_i h'
      have h1 : r0 = false := by cases r0 <;> simp_all
      have h2 : a.ctl = false := by cases hc : a.ctl <;> simp_all
      subst h1
      exact .inl (.none a h h2)
  · rename_i r1 h
    split
    · rename_i m r hq; exact .inl (.recv a r1 () m r h hq)
    · exact .inr rfl
  · rename_i r1 h; exact .inl (.skip a r1 h)
  · rename_i i m r1 h; exact .inl (.send a i m r1 h)
  · rename_i h; exact .inl (.again a h)
  · rename_i h; exact .inl (.recvCtl a h)
  · rename_i h; exact .inl (.sendCtl a h)
  · exact .inr rfl

theorem hbNext_ok (a : Relay Nat) (he : ∀ i, a.inq i = []) :
    (a.Step (hbNext a) ∨ hbNext a = a) ∧ ∀ i, (hbNext a).inq i = [] := by
  unfold hbNext
  split
  · rename_i h
    exact ⟨.inl (.sample0 a _ h (by simp [he])), he⟩
  · rename_i r0 h
    split
    · rename_i h'; exact ⟨.inl (.sample1 a r0 h h'), he⟩
    · rename_i h'
      have h1 : r0 = false := by cases r0 <;> simp_all
      have h2 : a.ctl = false := by cases hc : a.ctl <;> simp_all
      subst h1
      exact ⟨.inl (.none a h h2), he⟩
  · rename_i r1 h; exact ⟨.inl (.skip a r1 h), he⟩
  · rename_i h; exact ⟨.inl (.again a h), he⟩
  · rename_i h; exact ⟨.inl (.recvCtl a h), he⟩
  · rename_i h; exact ⟨.inl (.sendCtl a h), he⟩
  · exact ⟨.inr rfl, he⟩

theorem mainNext_ok {env : Env} {I : Interp σ} (s : Main σ) :
    (Step env I .main s (mainNext env I s) ∨ mainNext env I s = s) ∧ (mainNext env I s).hb.inq = s.hb.inq := by
  unfold mainNext
  split
  · rename_i h
    split
    · rename_i h'; exact ⟨.inl (.leave s h h'), rfl⟩
    · rename_i h'; exact ⟨.inl (.enter s h h'), rfl⟩
  · rename_i h; exact ⟨.inl (.sampleControl s _ h (by simp)), rfl⟩
  · rename_i rc h
    split
    · rename_i h'; exact ⟨.inl (.sampleShell s rc _ h (by simp) (by simpa using h')), rfl⟩
    · rename_i h'
      have h1 : rc = false := by cases rc <;> simp_all
      subst h1
      exact ⟨.inl (.nothing s h (by simpa using h')), rfl⟩
  · rename_i rs h
    split
    · rename_i q r hq; exact ⟨.inl (.takeControl s rs q r h hq), rfl⟩
    · exact ⟨.inr rfl, rfl⟩
  · rename_i rs h; exact ⟨.inl (.noControl s rs h), rfl⟩
  · rename_i rs h
    split
    · rename_i p w' hs; exact ⟨.inl (.workControl s rs p w' _ h hs (List.Sublist.refl _)), rfl⟩
    · split
      · rename_i h'; exact ⟨.inl (.doneControl s rs h h'), rfl⟩
      · exact ⟨.inr rfl, rfl⟩
  · rename_i rs h
    split
    · rename_i h'; obtain ⟨rfl, h'⟩ := h'; exact ⟨.inl (.shellNext s h h'), rfl⟩
    · rename_i h'
      refine ⟨.inl (.noShell s rs h ?_), rfl⟩
      cases rs with
      | false => exact .inl rfl
      | true => exact .inr (Classical.byContradiction fun hn => h' ⟨rfl, hn⟩)
  · rename_i h
    split
    · rename_i q r hq; exact ⟨.inl (.takeShell s q r h hq), rfl⟩
    · exact ⟨.inr rfl, rfl⟩
  · rename_i h
    split
    · rename_i p w' hs; exact ⟨.inl (.workShell s p w' _ h hs (List.Sublist.refl _)), rfl⟩
    · split
      · rename_i h'; exact ⟨.inl (.doneShell s h h'), rfl⟩
      · exact ⟨.inr rfl, rfl⟩
  · rename_i h; exact ⟨.inl (.stopPub s h), rfl⟩
  · rename_i h
    split
    · rename_i h'; exact ⟨.inl (.waitPub s h h'), rfl⟩
    · exact ⟨.inr rfl, rfl⟩
  · rename_i h; exact ⟨.inl (.stopHb s h), rfl⟩
  · rename_i h
    split
    · rename_i h'; exact ⟨.inl (.waitHb s h h'), rfl⟩
    · exact ⟨.inr rfl, rfl⟩
  · exact ⟨.inr rfl, rfl⟩

theorem choose_steps {env : Env} {I : Interp σ} {s₀ s : Main σ} (h : Steps (Step env I) s₀ s) (he : ∀ i, s.hb.inq i = [])
    (c : Choice) : Steps (Step env I) s₀ (choose env I s c) ∧ ∀ i, (choose env I s c).hb.inq i = [] := by
  cases c with
  | shell q => exact ⟨h.tail (.arriveShell s q), he⟩
  | control q => exact ⟨h.tail (.arriveControl s q), he⟩
  | main =>
    obtain ⟨h1 | h1, h2⟩ := mainNext_ok (env := env) (I := I) s
    · exact ⟨h.tail h1, by show ∀ i, (mainNext env I s).hb.inq i = []; rw [h2]; exact he⟩
    · show Steps (Step env I) s₀ (mainNext env I s) ∧ ∀ i, (mainNext env I s).hb.inq i = []
      rw [h1]; exact ⟨h, he⟩
  | pub =>
    rcases pubNext_ok s.pub with h1 | h1
    · exact ⟨h.tail (.publisher s _ h1), he⟩
    · show Steps (Step env I) s₀ { s with pub := pubNext s.pub } ∧ _
      rw [h1]; exact ⟨h, he⟩
  | hb =>
    obtain ⟨h1 | h1, h2⟩ := hbNext_ok s.hb he
    · exact ⟨h.tail (.heartbeat s _ h1), h2⟩
    · show Steps (Step env I) s₀ { s with hb := hbNext s.hb } ∧ ∀ i, (hbNext s.hb).inq i = []
      exact ⟨by rw [h1]; exact h, h2⟩

/-- Any list of choices is a sequence of steps. -/
theorem steps_choose {env : Env} {I : Interp σ} {s₀ : Main σ} (cs : List Choice) (he : ∀ i, s₀.hb.inq i = []) :
    Steps (Step env I) s₀ (cs.foldl (choose env I) s₀) := by
  suffices h : ∀ (s : Main σ), Steps (Step env I) s₀ s → (∀ i, s.hb.inq i = []) →
      Steps (Step env I) s₀ (cs.foldl (choose env I) s) from h _ (.refl _) he
  induction cs with
  | nil => intro s h _; exact h
  | cons c cs ih =>
    intro s h he
    exact ih _ (choose_steps h he c).1 (choose_steps h he c).2

theorem reach_steps {env : Env} {I : Interp σ} {st : Start σ} {s s' : Main σ} (h : Reach env I st s) (h' : Steps (Step env I) s s') :
    Reach env I st s' := by
  induction h' with
  | refl => exact h
  | tail _ hs ih => exact ih.step hs

/-- Any list of choices is a schedule. -/
theorem reach_choose {env : Env} {I : Interp σ} {st : Start σ} (cs : List Choice) :
    Reach env I st (cs.foldl (choose env I) (init st)) := reach_steps .start (steps_choose cs fun _ => rfl)

/-- Two shell messages and one control message arrive and are handled; then a shutdown request arrives on the control
channel; the publisher takes its turn after every step of the main thread until then, and all threads to the end. -/
def dayTurns : List Choice :=
  [.shell (wireOf (reqFrom "a" "m1" "kernel_info_request" (.obj []))), .shell (wireOf (reqFrom "a" "m2" "kernel_info_request" (.obj []))),
   .control (wireOf (reqFrom "b" "m3" "kernel_info_request" (.obj [])))] ++
  (List.replicate 110 [Choice.main, .pub]).flatten ++
  [.control (wireOf (reqFrom "b" "m4" "shutdown_request" (.obj [(lit "restart", .bool false)])))] ++
  List.replicate 60 .main ++ (List.replicate 30 [Choice.pub, .hb, .main]).flatten

/-- The state after it. -/
def day : Main Nat := dayTurns.foldl (choose sampleEnv sampleInterp) (init 0)

theorem day_reach : Reach sampleEnv sampleInterp 0 day := reach_choose _

end Main

/-! ## C47: the main loop -/

/-- C47: the kernel inside the server is a run of the kernel as described by `CReach`, so that everything proved about those
(C32) holds for it; and it handles one message at a time. -/
theorem C47_kernel (env : Env) (I : Interp σ) (st : Start σ) (s : Main σ) (h : Main.Reach env I st s) :
    CReach env I st s.c ∧ (s.c.prog .control = .done (.ok ()) ∨ s.c.prog .shell = .done (.ok ())) := by
  refine ⟨(Main.kinv_reach h).conc, ?_⟩
  by_cases hp : s.pc = .shell
  · exact .inl ((Main.kinv_reach h).idleC (by simp [hp]))
  · exact .inr ((Main.kinv_reach h).idleS hp)

example : ∃ s, Main.Reach sampleEnv sampleInterp 0 s ∧ s.c.w.out.length = 18 := ⟨Main.day, Main.day_reach, by decide +kernel⟩

/-- C47: messages are received in the order of their arrival, each exactly once; those not yet received are waiting. -/
theorem C47_order (env : Env) (I : Interp σ) (st : Start σ) (s : Main σ) (h : Main.Reach env I st s) :
    takenFrom .control s.log ++ s.c.controlQ = arrivedOn .control s.log ∧
    takenFrom .shell s.log ++ s.c.w.shellQ = arrivedOn .shell s.log :=
  ⟨(Main.qinv_reach h).control, (Main.qinv_reach h).shell⟩

example : takenFrom .shell Main.day.log = [wireOf (reqFrom "a" "m1" "kernel_info_request" (.obj [])),
    wireOf (reqFrom "a" "m2" "kernel_info_request" (.obj []))] ∧ (arrivedOn .control Main.day.log).length = 2 := by
  decide +kernel

/-- C47: if a control message is waiting when the server looks for messages, it handles a control message before the next
shell message. -/
theorem C47_priority (env : Env) (I : Interp σ) (st : Start σ) (s : Main σ) (h : Main.Reach env I st s) (a b : List SEv)
    (q : Multipart) (post : List SEv) (hl : s.log = a ++ .poll :: b ++ .act (.took .shell q) :: post) (hb : SEv.poll ∉ b)
    (hw : (takenFrom .control a).length < (arrivedOn .control a).length) : ∃ q', SEv.act (.took .control q') ∈ b :=
  (Main.prio_reach h).taken a b q post hl hb hw

example : ∃ a b q post, Main.day.log = a ++ .poll :: b ++ .act (.took .shell q) :: post ∧ SEv.poll ∉ b ∧
    (takenFrom .control a).length < (arrivedOn .control a).length := by
  refine ⟨Main.day.log.take 3, (Main.day.log.drop 4).take 5, wireOf (reqFrom "a" "m1" "kernel_info_request" (.obj [])),
    Main.day.log.drop 10, ?_, ?_, ?_⟩ <;> decide +kernel

/-- C47: once a stop has been requested no further message is handled. -/
theorem C47_stop (env : Env) (I : Interp σ) (st : Start σ) (s : Main σ) (h : Main.Reach env I st s) (a : List SEv) (t : Chan)
    (b : List SEv) (hl : s.log = a ++ .act (.did t .stop) :: b) (t' : Chan) (q : Multipart) : SEv.act (.took t' q) ∉ b :=
  (Main.stopinv_reach h).after a t b hl t' q

example : ∃ a b, Main.day.log = a ++ .act (.did .control .stop) :: b := by
  have h : SEv.act (.did .control .stop) ∈ Main.day.log := by decide +kernel
  exact List.append_of_mem h

/-! ## C74: stale readiness -/

/-- C74: while the main thread waits for a shell message that is no longer there it handles no control message; this lasts
until a shell message arrives. -/
theorem C74_deaf (env : Env) (I : Interp σ) (a : Who) (s s' : Main σ) (hp : s.pc = .recv) (hq : s.c.w.shellQ = [])
    (hs : Main.Step env I a s s') (hn : ∀ q, s'.log ≠ s.log ++ [.arrived .shell q]) :
    s'.pc = .recv ∧ s'.c.w.shellQ = [] ∧ takenFrom .control s'.log = takenFrom .control s.log := by
  cases hs with
  | arriveShell _ q => exact absurd rfl (hn q)
  | arriveControl _ q => exact ⟨hp, hq, by simp [takenFrom_append, takenFrom]⟩
  | arriveStdin _ q => exact ⟨hp, hq, rfl⟩
  | ping _ i m => exact ⟨hp, hq, rfl⟩
  | publisher _ a _ => exact ⟨hp, hq, rfl⟩
  | heartbeat _ a _ => exact ⟨hp, hq, rfl⟩
  | takeShell _ q r _ h => rw [hq] at h; cases h
  | enter _ h _ => rw [hp] at h; cases h
  | sampleControl _ _ h _ => rw [hp] at h; cases h
  | sampleShell _ _ _ h _ _ => rw [hp] at h; cases h
  | nothing _ h _ => rw [hp] at h; cases h
  | takeControl _ _ _ _ h _ => rw [hp] at h; cases h
  | noControl _ _ h => rw [hp] at h; cases h
  | workControl _ _ _ _ _ h _ _ => rw [hp] at h; cases h
  | doneControl _ _ h _ => rw [hp] at h; cases h
  | shellNext _ h _ => rw [hp] at h; cases h
  | noShell _ _ h _ => rw [hp] at h; cases h
  | workShell _ _ _ _ h _ _ => rw [hp] at h; cases h
  | doneShell _ h _ => rw [hp] at h; cases h
  | leave _ h _ => rw [hp] at h; cases h
  | stopPub _ h => rw [hp] at h; cases h
  | waitPub _ h _ => rw [hp] at h; cases h
  | stopHb _ h => rw [hp] at h; cases h
  | waitHb _ h _ => rw [hp] at h; cases h

/-- A failing execute request on the control channel aborts the shell message seen in the same round; then another control
message arrives. -/
def Main.deafTurns : List Main.Choice :=
  [.shell (wireOf (reqFrom "a" "m1" "kernel_info_request" (.obj []))),
   .control (wireOf (reqFrom "b" "m2" "execute_request" (.obj [(lit "code", .str (lit "1")), (lit "stop_on_error", .bool true)])))] ++
  List.replicate 100 .main ++
  [.control (wireOf (reqFrom "b" "m3" "interrupt_request" (.obj [])))] ++ List.replicate 10 .main

/-- The state after it. -/
def Main.deaf : Main Nat := Main.deafTurns.foldl (Main.choose sampleEnv failInterp) (Main.init 0)

/-- Finding (C74): this happens, with control messages waiting. -/
theorem C74_witness : ∃ s, Main.Reach sampleEnv failInterp 0 s ∧ s.pc = .recv ∧ s.c.w.shellQ = [] ∧ s.c.controlQ ≠ [] :=
  ⟨Main.deaf, Main.reach_choose _, by decide +kernel, by decide +kernel, by decide +kernel⟩

/-! ## C48: the publisher -/

/-- C48: of what the kernel published the socket keeps a subsequence (everything if it drops nothing), and what the publisher
thread has passed on, what it has in hand and what is waiting make up exactly that, in this order. -/
theorem C48_order (env : Env) (I : Interp σ) (st : Start σ) (s : Main σ) (h : Main.Reach env I st s) :
    (s.pub.passedOf () ++ s.pub.held () ++ s.pub.inq ()).Sublist (wiresOf s.c.w.out) ∧
    (s.dropped = 0 → s.pub.passedOf () ++ s.pub.held () ++ s.pub.inq () = wiresOf s.c.w.out) := by
  rw [wiresOf_eq]
  have hr := Main.rinv_reach h
  rw [← hr.pubCounted ()]
  refine ⟨hr.sub, fun hd => ?_⟩
  exact hr.sub.eq_of_length (by have := hr.len; omega)

/-- C48: so what clients get is a prefix of what was published if nothing was dropped. -/
theorem C48_prefix (env : Env) (I : Interp σ) (st : Start σ) (s : Main σ) (h : Main.Reach env I st s) (hd : s.dropped = 0) :
    s.pub.passedOf () <+: wiresOf s.c.w.out := by
  rw [← (C48_order env I st s h).2 hd, List.append_assoc]
  exact List.prefix_append _ _

example : Main.day.dropped = 0 ∧ (Main.day.pub.passedOf ()).length = 7 ∧ (wiresOf Main.day.c.w.out).length = 9 := by
  decide +kernel

/-- Finding (C48): what is still waiting when the stop command is seen is lost, e.g. the last status notification. -/
theorem C48_loss_witness : ∃ s, Main.Reach sampleEnv sampleInterp 0 s ∧ s.pc = .exited ∧ s.dropped = 0 ∧
    s.pub.passedOf () ≠ wiresOf s.c.w.out :=
  ⟨Main.day, Main.day_reach, by decide +kernel, by decide +kernel, by decide +kernel⟩

/-! ## C49: the heartbeat -/

/-- C49: what was sent back to a client, what is in hand and what is waiting make up exactly what the client sent, in this
order; before the thread has ended nothing else can happen to a ping. -/
theorem C49_echo (env : Env) (I : Interp σ) (st : Start σ) (s : Main σ) (h : Main.Reach env I st s) (i : Nat) :
    s.hb.given i = s.hb.passedOf i ++ s.hb.held i ++ s.hb.inq i := (Main.rinv_reach h).hbCounted i

/-- What a client sends is what counts as given. -/
theorem C49_given (env : Env) (I : Interp σ) (a : Who) (s s' : Main σ) (h : Main.Step env I a s s') (i : Nat) :
    s'.hb.given i = s.hb.given i ∨ ∃ m, s' = { s with hb := s.hb.put i [m] } ∧ s'.hb.given i = s.hb.given i ++ [m] := by
  cases h with
  | ping _ j m =>
    by_cases hj : i = j
    · subst hj; exact .inr ⟨m, rfl, by simp [Relay.put, Relay.upd]⟩
    · exact .inl (by simp [Relay.put, Relay.upd, hj])
  | heartbeat _ a ha => exact .inl (by rw [Relay.step_given ha])
  | _ => exact .inl rfl

/-- C49: in every execution that is fair to the heartbeat thread, when a ping is waiting the thread eventually sends a
message back, unless it has ended. -/
theorem C49_progress (env : Env) (I : Interp σ) (st : Start σ) (e : Execution (Main.Step env I)) (h0 : e.state 0 = Main.init st)
    (hf : Fair e .hb) (n : Nat) (i : Nat) (hi : (e.state n).hb.inq i ≠ []) :
    ∃ m, n ≤ m ∧ ((e.state n).hb.passed.length < (e.state m).hb.passed.length ∨ (e.state m).hb.pc = .over) := by
  have hre : ∀ m, Main.Reach env I st (e.state m) := by
    intro m
    induction m with
    | zero => rw [h0]; exact .start
    | succ m ih =>
      have := e.ok m
      cases hw : e.who m with
      | none => rw [hw] at this; simp only at this; rw [this]; exact ih
      | some a => rw [hw] at this; exact ih.step this
  have hpres : ∀ m, n ≤ m → (e.state n).hb.passed.length ≤ (e.state m).hb.passed.length ∧
      ((e.state m).hb.passed.length = (e.state n).hb.passed.length → (e.state m).hb.Loaded) := by
    intro m hm
    induction m with
    | zero => obtain rfl : n = 0 := by omega
              exact ⟨Nat.le_refl _, fun _ => .inl ⟨i, hi⟩⟩
    | succ m ih =>
      by_cases hnm : n = m + 1
      · subst hnm; exact ⟨Nat.le_refl _, fun _ => .inl ⟨i, hi⟩⟩
      · obtain ⟨h1, h2⟩ := ih (by omega)
        have hk := e.ok m
        cases hw : e.who m with
        | none => rw [hw] at hk; simp only at hk; rw [hk]; exact ⟨h1, h2⟩
        | some a =>
          rw [hw] at hk
          simp only at hk
          generalize hgen : e.state (m + 1) = s' at hk ⊢
          cases hk with
          | heartbeat _ b hb =>
            have := Relay.passed_le hb
            refine ⟨by show _ ≤ b.passed.length; omega, fun heq => ?_⟩
            have heq : b.passed.length = (e.state n).hb.passed.length := heq
            rcases (h2 (by omega)).step hb with h | h
            · exact h
            · omega
          | ping _ j q => exact ⟨h1, fun heq => (h2 heq).put j [q]⟩
          | _ => exact ⟨h1, h2⟩
  refine progress (lt := fun a b : Nat => a < b) Nat.lt_wfRel.wf e
    (fun s => Main.Reach env I st s ∧ (e.state n).hb.passed.length ≤ s.hb.passed.length ∧
      (s.hb.passed.length = (e.state n).hb.passed.length → s.hb.Loaded))
    (fun s => (e.state n).hb.passed.length < s.hb.passed.length ∨ s.hb.pc = .over)
    (fun s => s.hb.toSend) (fun _ => .hb) n (fun m hm => ⟨hre m, hpres m hm⟩) (fun _ _ _ => hf) ?_ ?_
  · rintro s ⟨hr, _, _⟩ hg
    obtain ⟨a, ha⟩ := Relay.can_step (Main.rinv_reach hr).hbSeen (fun h => hg (.inr h))
    exact ⟨_, .heartbeat s a ha⟩
  · rintro a s s' ⟨hr, h1, h2⟩ ⟨_, h1', _⟩ hg hs
    have hlen : s.hb.passed.length = (e.state n).hb.passed.length := by
      have : ¬ (e.state n).hb.passed.length < s.hb.passed.length := fun h => hg (.inl h)
      omega
    cases hs with
    | heartbeat _ b hb =>
      rcases Relay.toSend_step (h2 hlen) hb with h | h
      · exact .inr (.inl h)
      · exact .inl (.inl (by show _ < b.passed.length; omega))
    | _ => exact .inr (.inr ⟨by simp, rfl, rfl⟩)

/-- A client has sent a heartbeat. -/
def Main.pinged : Main Nat := { Main.init 0 with hb := Relay.put (Relay.init) 7 [[[1, 2]]] }

/-- It has been sent back. -/
def Main.ponged : Main Nat :=
  { Main.init 0 with hb := ⟨.asked false, Relay.upd Main.pinged.hb.inq 7 [], false, false, Main.pinged.hb.given, [(7, [[1, 2]])]⟩ }

theorem Main.pinged_steps : Steps (Main.Step sampleEnv sampleInterp) (Main.init 0) Main.pinged :=
  (Steps.refl _).tail (.ping _ 7 [[1, 2]])

theorem Main.ponged_steps : Steps (Main.Step sampleEnv sampleInterp) Main.pinged Main.ponged := by
  have h1 := (Steps.refl (step := Main.Step sampleEnv sampleInterp) Main.pinged).tail
    (.heartbeat _ _ (.sample0 _ true rfl (by simpa using ⟨7, by decide⟩)))
  have h2 := h1.tail (.heartbeat _ _ (.sample1 _ true rfl (.inl rfl)))
  have h3 := h2.tail (.heartbeat _ _ (.recv _ false 7 [[1, 2]] [] rfl rfl))
  exact h3.tail (.heartbeat _ _ (.send _ 7 [[1, 2]] false rfl))

/-- After that comes the day described above. -/
def Main.pongedDay : Main Nat := Main.dayTurns.foldl (Main.choose sampleEnv sampleInterp) Main.ponged

theorem Main.over_no_hb {env : Env} {I : Interp σ} {s : Main σ} (h : s.hb.pc = .over) : ¬ CanStep (Main.Step env I) .hb s := by
  rintro ⟨s', hs⟩
  cases hs with
  | heartbeat _ a ha => exact Relay.over_stuck h ha

theorem Main.over_no_pub {env : Env} {I : Interp σ} {s : Main σ} (h : s.pub.pc = .over) : ¬ CanStep (Main.Step env I) .pub s := by
  rintro ⟨s', hs⟩
  cases hs with
  | publisher _ a ha => exact Relay.over_stuck h ha

theorem Main.exited_no_main {env : Env} {I : Interp σ} {s : Main σ} (h : s.pc = .exited) : ¬ CanStep (Main.Step env I) .main s := by
  rintro ⟨s', hs⟩
  cases hs <;> simp_all

/-- A fair execution with a ping. -/
example : ∃ (e : Execution (Main.Step sampleEnv sampleInterp)) (n i : Nat), e.state 0 = Main.init 0 ∧ Fair e .hb ∧
    (e.state n).hb.inq i ≠ [] := by
  have h2 : Steps (Main.Step sampleEnv sampleInterp) Main.pinged Main.pongedDay := by
    refine Steps.trans Main.ponged_steps (Main.steps_choose Main.dayTurns fun i => ?_)
    show Relay.upd Main.pinged.hb.inq 7 [] i = []
    simp [Relay.upd, Main.pinged, Relay.put, Relay.init]
  obtain ⟨e, n, N, h0, hn, hN⟩ := exec_through Main.pinged_steps h2
  exact ⟨e, n, 7, h0, fair_of_end e hN (Main.over_no_hb (by decide +kernel)), by rw [hn]; decide⟩

/-! ## C50: the end -/

/-- C50: the server comes to its end only when publisher and heartbeat have acknowledged the stop command and ended. -/
theorem C50_exit (env : Env) (I : Interp σ) (st : Start σ) (s : Main σ) (h : Main.Reach env I st s) (he : s.pc = .exited) :
    s.pub.pc = .over ∧ s.hb.pc = .over := by
  have := (Main.rinv_reach h).proto
  unfold Main.Proto at this
  rw [he] at this
  exact ⟨this.1.2.2, this.2.2.2⟩

example : ∃ s, Main.Reach sampleEnv sampleInterp 0 s ∧ s.pc = .exited := ⟨Main.day, Main.day_reach, by decide +kernel⟩

/-- C50: after a stop request there is always a thread that can go on, unless a handler failed. -/
theorem C50_no_deadlock (env : Env) (I : Interp σ) (st : Start σ) (s : Main σ) (h : Main.Reach env I st s)
    (hs : stopAsked s.c.w) (hh : ∀ t r, s.c.prog t = .done r → r = .ok ()) (he : s.pc ≠ .exited) :
    ∃ a, a ≠ Who.world ∧ CanStep (Main.Step env I) a s :=
  ⟨Main.help s, fun h => Main.help_ne_world s h.symm, Main.can_help h hs hh he⟩

/-- C50: in every execution that is fair to all threads, the server comes to its end after a stop request, unless a handler
fails. -/
theorem C50_terminates (env : Env) (I : Interp σ) (st : Start σ) (e : Execution (Main.Step env I)) (h0 : e.state 0 = Main.init st)
    (hf : ∀ a, a ≠ Who.world → Fair e a) (n : Nat) (hs : stopAsked (e.state n).c.w)
    (hh : ∀ m, n ≤ m → ∀ t r, (e.state m).c.prog t = .done r → r = .ok ()) :
    ∃ m, n ≤ m ∧ (e.state m).pc = .exited := by
  have hre : ∀ m, Main.Reach env I st (e.state m) := by
    intro m
    induction m with
    | zero => rw [h0]; exact .start
    | succ m ih =>
      have := e.ok m
      cases hw : e.who m with
      | none => rw [hw] at this; simp only at this; rw [this]; exact ih
      | some a => rw [hw] at this; exact ih.step this
  have hst : ∀ m, n ≤ m → stopAsked (e.state m).c.w := by
    intro m hm
    induction m with
    | zero => obtain rfl : n = 0 := by omega
              exact hs
    | succ m ih =>
      by_cases hnm : n = m + 1
      · subst hnm; exact hs
      · have := e.ok m
        cases hw : e.who m with
        | none => rw [hw] at this; simp only at this; rw [this]; exact ih (by omega)
        | some a => rw [hw] at this; exact Main.stop_stays (hre m) (ih (by omega)) this
  exact progress later_wf e
    (fun s => Main.Reach env I st s ∧ stopAsked s.c.w ∧ ∀ t r, s.c.prog t = .done r → r = .ok ())
    (fun s => s.pc = .exited) Main.rank Main.help n (fun m hm => ⟨hre m, hst m hm, hh m hm⟩)
    (fun s _ _ => hf _ fun h => Main.help_ne_world s h.symm)
    (fun s hp hg => Main.can_help hp.1 hp.2.1 hp.2.2 hg)
    (fun a s s' hp _ _ h => Main.rank_dec hp.1 hp.2.1 h)

theorem Main.exited_ok {env : Env} {I : Interp σ} {st : Start σ} {s : Main σ} (h : Main.Reach env I st s) (he : s.pc = .exited)
    (t : Chan) (r) (ht : s.c.prog t = .done r) : r = .ok () := by
  have hk := Main.kinv_reach h
  cases t with
  | shell => rw [hk.idleS (by rw [he]; simp)] at ht; injection ht with ht; exact ht.symm
  | control => rw [hk.idleC (by rw [he]; simp)] at ht; injection ht with ht; exact ht.symm

/-- A fair execution with a stop request. -/
example : ∃ (e : Execution (Main.Step sampleEnv sampleInterp)) (n : Nat), e.state 0 = Main.init 0 ∧
    (∀ a, a ≠ Who.world → Fair e a) ∧ stopAsked (e.state n).c.w ∧
    ∀ m, n ≤ m → ∀ t r, (e.state m).c.prog t = .done r → r = .ok () := by
  have hd : Steps (Main.Step sampleEnv sampleInterp) (Main.init 0) Main.day := Main.steps_choose Main.dayTurns fun _ => rfl
  have h1 : stopAsked Main.day.c.w := by decide +kernel
  have h2 : Main.day.pc = .exited := by decide +kernel
  have h3 : Main.day.pub.pc = .over := by decide +kernel
  have h4 : Main.day.hb.pc = .over := by decide +kernel
  obtain ⟨e, N, h0, hN⟩ := exec_of_steps hd
  refine ⟨e, N, h0, fun a ha => ?_, by rw [hN N (Nat.le_refl _)]; exact h1, fun m hm t r ht => ?_⟩
  rotate_left
  · rw [hN m hm] at ht
    exact Main.exited_ok Main.day_reach h2 t r ht
  cases a with
  | world => exact absurd rfl ha
  | main => exact fair_of_end e hN (Main.exited_no_main h2)
  | pub => exact fair_of_end e hN (Main.over_no_pub h3)
  | hb => exact fair_of_end e hN (Main.over_no_hb h4)

end Xeus
