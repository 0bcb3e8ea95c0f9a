import Verif.Server.Channels
import Verif.Server.SplitEnd
import Verif.Server.RelayLive

/-!
# Servers: every message is served (no property statements here)
-/

namespace Xeus

open Spec K

variable {σ : Type} {env : Env} {I : Interp σ}

theorem takenFrom_entries_len (c t : Chan) {w w' : World σ} (h : w'.shellQ <:+ w.shellQ) :
    (takenFrom c ((entries t w w').map .act)).length = if c = .shell then w.shellQ.length - w'.shellQ.length else 0 := by
  have := congrArg List.length (takenFrom_entries (w := w) (w' := w') c t h)
  rw [List.length_append] at this
  split at this <;> simp_all
  omega

/-- The order used here. -/
abbrev Served : Nat × (Nat × K (World σ) Unit) → Nat × (Nat × K (World σ) Unit) → Prop := Prod.Lex (· < ·) Later

theorem served_wf : WellFounded (Served (σ := σ)) :=
  ⟨fun x => Prod.lexAccessible (Nat.lt_wfRel.wf.apply x.1) (fun b => later_wf.apply b) x.2⟩

/-- A program does one step. -/
theorem served_work {k a b n : Nat} {p p' : K (World σ) Unit} (h : a ≤ b) (hk : a ≤ k) (hn : Next p' p) :
    Served (k + 1 - b, (n, p')) (k + 1 - a, (n, p)) := by
  by_cases he : a = b
  · subst he; exact .right _ (.right _ hn)
  · exact .left _ _ (by omega)

/-- The next stage. -/
theorem served_stage {k a b n m : Nat} {p p' : K (World σ) Unit} (h : a = b) (hn : n < m) :
    Served (k + 1 - b, (n, p')) (k + 1 - a, (m, p)) := by
  subst h; exact .right _ (.left _ _ hn)

namespace Main

theorem reach_exec {st : Start σ} (e : Execution (Step env I)) (h0 : e.state 0 = init st) (m : Nat) : Reach env I st (e.state m) := by
  induction m with
  | zero => rw [h0]; exact .start
  | succ m ih =>
    have := e.ok m
    cases hw : e.who m with
    | none => rw [hw] at this; simp only at this; rw [this]; exact ih
    | some a => rw [hw] at this; exact ih.step this

/-- What happened is not forgotten. -/
theorem log_step {a : Who} {s s' : Main σ} (h : Step env I a s s') : s.log <+: s'.log := by
  cases h with
  | arriveShell _ q => exact List.prefix_append _ _
  | arriveControl _ q => exact List.prefix_append _ _
  | enter _ hp hn => exact List.prefix_append _ _
  | takeControl _ rs q r hp hq => exact List.prefix_append _ _
  | takeShell _ q r hp hq => exact List.prefix_append _ _
  | workControl _ rs p w' keep hp hs _ => exact List.prefix_append _ _
  | workShell _ p w' keep hp hs _ => exact List.prefix_append _ _
  | _ => exact List.prefix_refl _

theorem log_exec (e : Execution (Step env I)) {n m : Nat} (h : n ≤ m) : (e.state n).log <+: (e.state m).log := by
  induction h with
  | refl => exact List.prefix_refl _
  | @step m _ ih =>
    have := e.ok m
    cases hw : e.who m with
    | none => rw [hw] at this; simp only at this; rw [this]; exact ih
    | some a => rw [hw] at this; exact ih.trans (log_step this)

/-- The channels are stopped only after a stop request. -/
theorem stopping_reach {st : Start σ} {s : Main σ} (h : Reach env I st s)
    (hp : s.pc = .stopPub ∨ s.pc = .waitPub ∨ s.pc = .stopHb ∨ s.pc = .waitHb ∨ s.pc = .exited) : stopAsked s.c.w := by
  induction h with
  | start => simp [init] at hp
  | step hr hs ih =>
    cases hs with
    | leave _ hp' h => exact h
    | stopPub _ hp' => exact ih (by simp [hp'])
    | waitPub _ hp' _ => exact ih (by simp [hp'])
    | stopHb _ hp' => exact ih (by simp [hp'])
    | waitHb _ hp' _ => exact ih (by simp [hp'])
    | workControl _ rs p w' keep hp' hs _ => simp [Main.work, hp'] at hp
    | workShell _ p w' keep hp' hs _ => simp [Main.work, hp'] at hp
    | arriveShell _ q => exact ih hp
    | arriveControl _ q => exact ih hp
    | arriveStdin _ q => exact ih hp
    | ping _ i m => exact ih hp
    | publisher _ a _ => exact ih hp
    | heartbeat _ a _ => exact ih hp
    | _ => simp at hp

/-- A control message seen is there. -/
theorem seenControl_reach {st : Start σ} {s : Main σ} (h : Reach env I st s)
    (hp : s.pc = .sampled true ∨ ∃ rs, s.pc = .polled true rs) : s.c.controlQ ≠ [] := by
  induction h with
  | start => simp [init] at hp
  | step hr hs ih =>
    cases hs with
    | arriveShell _ q => exact ih hp
    | arriveControl _ q => simp
    | arriveStdin _ q => exact ih hp
    | ping _ i m => exact ih hp
    | publisher _ a _ => exact ih hp
    | heartbeat _ a _ => exact ih hp
    | sampleControl _ rc hp' h => simp at hp; exact h.1 hp
    | sampleShell _ rc rs hp' h _ => simp at hp; subst hp; exact ih (.inl hp')
    | workControl _ rs p w' keep hp' hs _ => simp [Main.work, hp'] at hp
    | workShell _ p w' keep hp' hs _ => simp [Main.work, hp'] at hp
    | _ => simp at hp

/-- No shell message was aborted by a handler of a control message. -/
def NoDrain (s : Main σ) : Prop := ∀ q, SEv.act (.drained .control q) ∉ s.log

/-- A shell message seen is there. -/
def SeenShell (s : Main σ) : Prop :=
  ((∃ rc, s.pc = .polled rc true) ∨ s.pc = .control true ∨ s.pc = .between true ∨ s.pc = .recv) → s.c.w.shellQ ≠ []

theorem seenShell_reach {st : Start σ} {s : Main σ} (h : Reach env I st s) : NoDrain s → SeenShell s := by
  induction h with
  | start => intro _ h; simp [init] at h
  | step hr hs ih =>
    intro hn
    have ih := ih fun q hq => hn q ((log_step hs).subset hq)
    intro hp
    cases hs with
    | arriveShell _ q => simp
    | arriveControl _ q => exact ih hp
    | arriveStdin _ q => exact ih hp
    | ping _ i m => exact ih hp
    | publisher _ a _ => exact ih hp
    | heartbeat _ a _ => exact ih hp
    | sampleShell _ rc rs hp' h _ => simp at hp; exact h.1 hp
    | takeControl _ rs q r hp' hq => simp at hp; subst hp; exact ih (.inl ⟨_, hp'⟩)
    | noControl _ rs hp' => simp at hp; subst hp; exact ih (.inl ⟨_, hp'⟩)
    | workControl _ rs p w' keep hp' hs _ =>
      show w'.shellQ ≠ []
      rw [Split.suffix_same (creach_kept (kinv_reach hr).conc hs).2 (fun q hq => hn q (List.mem_append_right _ hq))]
      exact ih hp
    | doneControl _ rs hp' hd => simp at hp; subst hp; exact ih (.inr (.inl hp'))
    | shellNext _ hp' hn => exact ih (.inr (.inr (.inl hp')))
    | workShell _ p w' keep hp' hs _ => simp [Main.work, hp'] at hp
    | _ => simp at hp

/-! ## Shell messages -/

/-- How far the main thread is from receiving a shell message. -/
def shellStage (s : Main σ) : Nat × K (World σ) Unit :=
  match s.pc with
  | .recv => (0, .done (.ok ()))
  | .between true => (1, .done (.ok ()))
  | .control true => (2, s.c.prog .control)
  | .polled _ true => (3, .done (.ok ()))
  | .sampled _ => (4, .done (.ok ()))
  | .polling => (5, .done (.ok ()))
  | .loop => (6, .done (.ok ()))
  | .shell => (7, s.c.prog .shell)
  | .between false => (8, .done (.ok ()))
  | .control false => (9, s.c.prog .control)
  | .polled _ false => (10, .done (.ok ()))
  | _ => (11, .done (.ok ()))

theorem shellStage_same {s s' : Main σ} (h1 : s'.pc = s.pc) (h2 : s'.c.prog = s.c.prog) : shellStage s' = shellStage s := by
  unfold shellStage; rw [h1, h2]

/-- How many messages were received. -/
def count (c : Chan) (s : Main σ) : Nat := (takenFrom c s.log).length

theorem count_same {c : Chan} {s s' : Main σ} {es : List SEv} (h : s'.log = s.log ++ es) (he : takenFrom c es = []) :
    count c s' = count c s := by
  unfold count; rw [h, takenFrom_append, he, List.append_nil]

theorem count_le {c : Chan} {a : Who} {s s' : Main σ} (h : Step env I a s s') : count c s ≤ count c s' := by
  obtain ⟨es, he⟩ := log_step h
  unfold count
  rw [← he, takenFrom_append, List.length_append]
  omega

theorem can_serve {st : Start σ} {s : Main σ} (hr : Reach env I st s) (hh : Healthy s) (hs : ¬ stopAsked s.c.w)
    (hq : s.pc = .recv → s.c.w.shellQ ≠ []) : CanStep (Step env I) .main s := by
  have hstop := fun h => hs (stopping_reach hr h)
  cases hpc : s.pc with
  | loop => exact ⟨_, .enter s hpc hs⟩
  | polling =>
    by_cases h : s.c.controlQ = []
    · exact ⟨_, .sampleControl s false hpc (by simp [h])⟩
    · exact ⟨_, .sampleControl s true hpc (by simp [h])⟩
  | sampled rc =>
    by_cases h : s.c.w.shellQ = []
    · cases rc with
      | true => exact ⟨_, .sampleShell s true false hpc (by simp [h]) (.inl rfl)⟩
      | false => exact ⟨_, .nothing s hpc h⟩
    · exact ⟨_, .sampleShell s rc true hpc (by simp [h]) (.inr rfl)⟩
  | polled rc rs =>
    cases rc with
    | true =>
      cases hc : s.c.controlQ with
      | nil => exact absurd hc (seenControl_reach hr (.inr ⟨rs, hpc⟩))
      | cons q r => exact ⟨_, .takeControl s rs q r hpc hc⟩
    | false => exact ⟨_, .noControl s rs hpc⟩
  | control rs =>
    by_cases hd : s.c.prog .control = .done (.ok ())
    · exact ⟨_, .doneControl s rs hpc hd⟩
    · obtain ⟨p', w', h⟩ := K.can_step (hh .control) hd s.c.w
      exact ⟨_, .workControl s rs p' w' _ hpc h (List.Sublist.refl _)⟩
  | between rs =>
    cases rs with
    | true => exact ⟨_, .shellNext s hpc hs⟩
    | false => exact ⟨_, .noShell s false hpc (.inl rfl)⟩
  | recv =>
    cases hc : s.c.w.shellQ with
    | nil => exact absurd hc (hq hpc)
    | cons q r => exact ⟨_, .takeShell s q r hpc hc⟩
  | shell =>
    by_cases hd : s.c.prog .shell = .done (.ok ())
    · exact ⟨_, .doneShell s hpc hd⟩
    · obtain ⟨p', w', h⟩ := K.can_step (hh .shell) hd s.c.w
      exact ⟨_, .workShell s p' w' _ hpc h (List.Sublist.refl _)⟩
  | stopPub => exact absurd (.inl hpc) hstop
  | waitPub => exact absurd (.inr (.inl hpc)) hstop
  | stopHb => exact absurd (.inr (.inr (.inl hpc))) hstop
  | waitHb => exact absurd (.inr (.inr (.inr (.inl hpc)))) hstop
  | exited => exact absurd (.inr (.inr (.inr (.inr hpc)))) hstop

theorem shell_step {st : Start σ} {k : Nat} {a : Who} {s s' : Main σ} (hr : Reach env I st s) (hs : ¬ stopAsked s.c.w)
    (hq : s.c.w.shellQ ≠ []) (hk : count .shell s ≤ k) (h : Step env I a s s') :
    Served (k + 1 - count .shell s', shellStage s') (k + 1 - count .shell s, shellStage s) ∨
      (a ≠ .main ∧ (k + 1 - count .shell s', shellStage s') = (k + 1 - count .shell s, shellStage s)) := by
  have hstop := fun h => hs (stopping_reach hr h)
  have same : ∀ {s' : Main σ} {es : List SEv}, s'.log = s.log ++ es → takenFrom .shell es = [] → s'.pc = s.pc → s'.c.prog = s.c.prog →
      (k + 1 - count .shell s', shellStage s') = (k + 1 - count .shell s, shellStage s) := by
    intro s' es h1 h2 h3 h4
    rw [count_same h1 h2, shellStage_same h3 h4]
  cases h with
  | arriveShell _ q => exact .inr ⟨by simp, same rfl rfl rfl rfl⟩
  | arriveControl _ q => exact .inr ⟨by simp, same rfl rfl rfl rfl⟩
  | arriveStdin _ q => exact .inr ⟨by simp, same (es := []) (by simp) rfl rfl rfl⟩
  | ping _ i m => exact .inr ⟨by simp, same (es := []) (by simp) rfl rfl rfl⟩
  | publisher _ a _ => exact .inr ⟨by simp, same (es := []) (by simp) rfl rfl rfl⟩
  | heartbeat _ a _ => exact .inr ⟨by simp, same (es := []) (by simp) rfl rfl rfl⟩
  | enter _ hp _ =>
    refine .inl ?_
    unfold shellStage; simp only [hp]
    exact served_stage (count_same rfl rfl).symm (by omega)
  | sampleControl _ rc hp _ =>
    refine .inl ?_
    unfold shellStage; simp only [hp]
    exact served_stage rfl (by omega)
  | sampleShell _ rc rs hp h _ =>
    refine .inl ?_
    have : rs = true := h.2 hq
    subst this
    unfold shellStage; simp only [hp]
    exact served_stage rfl (by omega)
  | nothing _ hp h => exact absurd h hq
  | takeControl _ rs q r hp h =>
    refine .inl ?_
    unfold shellStage; simp only [hp]
    cases rs <;> exact served_stage (count_same (es := [.act (.took .control q)]) rfl rfl).symm (by omega)
  | noControl _ rs hp =>
    refine .inl ?_
    unfold shellStage; simp only [hp]
    cases rs <;> exact served_stage rfl (by omega)
  | workControl _ rs p w' keep hp h' hk' =>
    refine .inl ?_
    have hle := count_le (c := .shell) (Step.workControl (env := env) (I := I) s rs p w' keep hp h' hk')
    have e1 : shellStage (s.work .control p w' keep) = ((if rs then 2 else 9), p) := by
      unfold shellStage; simp only [Main.work, hp, setProg, if_true]; cases rs <;> rfl
    have e2 : shellStage s = ((if rs then 2 else 9), s.c.prog .control) := by
      unfold shellStage; simp only [hp]; cases rs <;> rfl
    rw [e1, e2]
    exact served_work hle hk ⟨_, _, h'⟩
  | doneControl _ rs hp _ =>
    refine .inl ?_
    unfold shellStage; simp only [hp]
    cases rs <;> exact served_stage rfl (by omega)
  | shellNext _ hp _ =>
    refine .inl ?_
    unfold shellStage; simp only [hp]
    exact served_stage rfl (by omega)
  | noShell _ rs hp h =>
    refine .inl ?_
    have : rs = false := h.resolve_right hs
    subst this
    unfold shellStage; simp only [hp]
    exact served_stage rfl (by omega)
  | takeShell _ q r hp h =>
    refine .inl (.left _ _ ?_)
    have : count .shell { s with
        c := { s.c with w := { s.c.w with shellQ := r }, prog := setProg s.c .shell (dispatch env I q .shell),
                        log := s.c.log ++ [.took .shell q] }
        pc := .shell, log := s.log ++ [.act (.took .shell q)] } = count .shell s + 1 := by
      simp [count, takenFrom_append, takenFrom]
    rw [this]
    omega
  | workShell _ p w' keep hp h' hk' =>
    refine .inl ?_
    have hle := count_le (c := .shell) (Step.workShell (env := env) (I := I) s p w' keep hp h' hk')
    have e1 : shellStage (s.work .shell p w' keep) = (7, p) := by
      unfold shellStage; simp only [Main.work, hp, setProg, if_true]
    have e2 : shellStage s = (7, s.c.prog .shell) := by
      unfold shellStage; simp only [hp]
    rw [e1, e2]
    exact served_work hle hk ⟨_, _, h'⟩
  | doneShell _ hp _ =>
    refine .inl ?_
    unfold shellStage; simp only [hp]
    exact served_stage rfl (by omega)
  | leave _ hp h => exact absurd h hs
  | stopPub _ hp => exact absurd (.inl hp) hstop
  | waitPub _ hp _ => exact absurd (.inr (.inl hp)) hstop
  | stopHb _ hp => exact absurd (.inr (.inr (.inl hp))) hstop
  | waitHb _ hp _ => exact absurd (.inr (.inr (.inr (.inl hp)))) hstop

theorem shell_waiting {st : Start σ} {s : Main σ} (hr : Reach env I st s) {k : Nat} (h : k < (arrivedOn .shell s.log).length)
    (hk : count .shell s ≤ k) : s.c.w.shellQ ≠ [] := by
  intro hq
  have := (qinv_reach hr).shell
  rw [hq, List.append_nil] at this
  unfold count at hk
  rw [this] at hk
  omega

theorem control_waiting {st : Start σ} {s : Main σ} (hr : Reach env I st s) {k : Nat} (h : k < (arrivedOn .control s.log).length)
    (hk : count .control s ≤ k) : s.c.controlQ ≠ [] := by
  intro hq
  have := (qinv_reach hr).control
  rw [hq, List.append_nil] at this
  unfold count at hk
  rw [this] at hk
  omega

theorem arrived_mono {c : Chan} {a b : List SEv} (h : a <+: b) : (arrivedOn c a).length ≤ (arrivedOn c b).length := by
  obtain ⟨x, rfl⟩ := h
  rw [arrivedOn_append, List.length_append]
  omega

theorem serves_shell {st : Start σ} (e : Execution (Step env I)) (h0 : e.state 0 = init st) (hf : Fair e .main) (n k : Nat)
    (hk : k < (arrivedOn .shell (e.state n).log).length) (hh : ∀ m, n ≤ m → Healthy (e.state m)) :
    ∃ m, n ≤ m ∧ (k < count .shell (e.state m) ∨ stopAsked (e.state m).c.w) := by
  refine progress served_wf e
    (fun s => Reach env I st s ∧ Healthy s ∧ k < (arrivedOn .shell s.log).length)
    (fun s => k < count .shell s ∨ stopAsked s.c.w) (fun s => (k + 1 - count .shell s, shellStage s)) (fun _ => .main) n
    (fun m hm => ⟨reach_exec e h0 m, hh m hm, Nat.lt_of_lt_of_le hk (arrived_mono (log_exec e hm))⟩) (fun _ _ _ => hf) ?_ ?_
  · rintro s ⟨h1, h2, h3⟩ hg
    exact can_serve h1 h2 (fun h => hg (.inr h)) fun _ => shell_waiting h1 h3 (Nat.not_lt.1 fun h => hg (.inl h))
  · rintro a s s' ⟨h1, h2, h3⟩ _ hg hs
    have hc : count .shell s ≤ k := Nat.not_lt.1 fun h => hg (.inl h)
    rcases shell_step h1 (fun h => hg (.inr h)) (shell_waiting h1 h3 hc) hc hs with h | ⟨h, h'⟩
    · exact .inr (.inl h)
    · exact .inr (.inr ⟨h, h', rfl⟩)

/-! ## Control messages -/

/-- How far the main thread is from receiving a control message. -/
def controlStage (s : Main σ) : Nat × K (World σ) Unit :=
  match s.pc with
  | .polled true _ => (0, .done (.ok ()))
  | .sampled true => (1, .done (.ok ()))
  | .polling => (2, .done (.ok ()))
  | .loop => (3, .done (.ok ()))
  | .shell => (4, s.c.prog .shell)
  | .recv => (5, .done (.ok ()))
  | .between _ => (6, .done (.ok ()))
  | .control _ => (7, s.c.prog .control)
  | .polled false _ => (8, .done (.ok ()))
  | .sampled false => (9, .done (.ok ()))
  | _ => (10, .done (.ok ()))

theorem controlStage_same {s s' : Main σ} (h1 : s'.pc = s.pc) (h2 : s'.c.prog = s.c.prog) :
    controlStage s' = controlStage s := by
  unfold controlStage; rw [h1, h2]

theorem control_step {st : Start σ} {k : Nat} {a : Who} {s s' : Main σ} (hr : Reach env I st s) (hs : ¬ stopAsked s.c.w)
    (hq : s.c.controlQ ≠ []) (hk : count .control s ≤ k) (h : Step env I a s s') :
    Served (k + 1 - count .control s', controlStage s') (k + 1 - count .control s, controlStage s) ∨
      (a ≠ .main ∧ (k + 1 - count .control s', controlStage s') = (k + 1 - count .control s, controlStage s)) := by
  have hstop := fun h => hs (stopping_reach hr h)
  have same : ∀ {s' : Main σ} {es : List SEv}, s'.log = s.log ++ es → takenFrom .control es = [] → s'.pc = s.pc →
      s'.c.prog = s.c.prog →
      (k + 1 - count .control s', controlStage s') = (k + 1 - count .control s, controlStage s) := by
    intro s' es h1 h2 h3 h4
    rw [count_same h1 h2, controlStage_same h3 h4]
  cases h with
  | arriveShell _ q => exact .inr ⟨by simp, same rfl rfl rfl rfl⟩
  | arriveControl _ q => exact .inr ⟨by simp, same rfl rfl rfl rfl⟩
  | arriveStdin _ q => exact .inr ⟨by simp, same (es := []) (by simp) rfl rfl rfl⟩
  | ping _ i m => exact .inr ⟨by simp, same (es := []) (by simp) rfl rfl rfl⟩
  | publisher _ a _ => exact .inr ⟨by simp, same (es := []) (by simp) rfl rfl rfl⟩
  | heartbeat _ a _ => exact .inr ⟨by simp, same (es := []) (by simp) rfl rfl rfl⟩
  | enter _ hp _ =>
    refine .inl ?_
    unfold controlStage; simp only [hp]
    exact served_stage (count_same rfl rfl).symm (by omega)
  | sampleControl _ rc hp h =>
    refine .inl ?_
    have : rc = true := h.2 hq
    subst this
    unfold controlStage; simp only [hp]
    exact served_stage rfl (by omega)
  | sampleShell _ rc rs hp h _ =>
    refine .inl ?_
    unfold controlStage; simp only [hp]
    cases rc <;> exact served_stage rfl (by omega)
  | nothing _ hp h =>
    refine .inl ?_
    unfold controlStage; simp only [hp]
    exact served_stage rfl (by omega)
  | takeControl _ rs q r hp h =>
    refine .inl (.left _ _ ?_)
    have : count .control { s with
        c := { s.c with controlQ := r, prog := setProg s.c .control (dispatch env I q .control),
                        log := s.c.log ++ [.took .control q] }
        pc := .control rs, log := s.log ++ [.act (.took .control q)] } = count .control s + 1 := by
      simp [count, takenFrom_append, takenFrom]
    rw [this]
    omega
  | noControl _ rs hp =>
    refine .inl ?_
    unfold controlStage; simp only [hp]
    exact served_stage rfl (by omega)
  | workControl _ rs p w' keep hp h' hk' =>
    refine .inl ?_
    have hle := count_le (c := .control) (Step.workControl (env := env) (I := I) s rs p w' keep hp h' hk')
    have e1 : controlStage (s.work .control p w' keep) = (7, p) := by
      unfold controlStage; simp only [Main.work, hp, setProg, if_true]
    have e2 : controlStage s = (7, s.c.prog .control) := by
      unfold controlStage; simp only [hp]
    rw [e1, e2]
    exact served_work hle hk ⟨_, _, h'⟩
  | doneControl _ rs hp _ =>
    refine .inl ?_
    unfold controlStage; simp only [hp]
    exact served_stage rfl (by omega)
  | shellNext _ hp _ =>
    refine .inl ?_
    unfold controlStage; simp only [hp]
    exact served_stage rfl (by omega)
  | noShell _ rs hp h =>
    refine .inl ?_
    unfold controlStage; simp only [hp]
    exact served_stage rfl (by omega)
  | takeShell _ q r hp h =>
    refine .inl ?_
    unfold controlStage; simp only [hp]
    exact served_stage (count_same (es := [.act (.took .shell q)]) rfl rfl).symm (by omega)
  | workShell _ p w' keep hp h' hk' =>
    refine .inl ?_
    have hle := count_le (c := .control) (Step.workShell (env := env) (I := I) s p w' keep hp h' hk')
    have e1 : controlStage (s.work .shell p w' keep) = (4, p) := by
      unfold controlStage; simp only [Main.work, hp, setProg, if_true]
    have e2 : controlStage s = (4, s.c.prog .shell) := by
      unfold controlStage; simp only [hp]
    rw [e1, e2]
    exact served_work hle hk ⟨_, _, h'⟩
  | doneShell _ hp _ =>
    refine .inl ?_
    unfold controlStage; simp only [hp]
    exact served_stage rfl (by omega)
  | leave _ hp h => exact absurd h hs
  | stopPub _ hp => exact absurd (.inl hp) hstop
  | waitPub _ hp _ => exact absurd (.inr (.inl hp)) hstop
  | stopHb _ hp => exact absurd (.inr (.inr (.inl hp))) hstop
  | waitHb _ hp _ => exact absurd (.inr (.inr (.inr (.inl hp)))) hstop

theorem serves_control {st : Start σ} (e : Execution (Step env I)) (h0 : e.state 0 = init st) (hf : Fair e .main) (n k : Nat)
    (hk : k < (arrivedOn .control (e.state n).log).length) (hh : ∀ m, n ≤ m → Healthy (e.state m))
    (hd : ∀ m, n ≤ m → NoDrain (e.state m)) :
    ∃ m, n ≤ m ∧ (k < count .control (e.state m) ∨ stopAsked (e.state m).c.w) := by
  refine progress served_wf e
    (fun s => Reach env I st s ∧ Healthy s ∧ NoDrain s ∧ k < (arrivedOn .control s.log).length)
    (fun s => k < count .control s ∨ stopAsked s.c.w) (fun s => (k + 1 - count .control s, controlStage s)) (fun _ => .main) n
    (fun m hm => ⟨reach_exec e h0 m, hh m hm, hd m hm, Nat.lt_of_lt_of_le hk (arrived_mono (log_exec e hm))⟩)
    (fun _ _ _ => hf) ?_ ?_
  · rintro s ⟨h1, h2, h3, h4⟩ hg
    exact can_serve h1 h2 (fun h => hg (.inr h)) fun hp => seenShell_reach h1 h3 (.inr (.inr (.inr hp)))
  · rintro a s s' ⟨h1, h2, h3, h4⟩ _ hg hs
    have hc : count .control s ≤ k := Nat.not_lt.1 fun h => hg (.inl h)
    rcases control_step h1 (fun h => hg (.inr h)) (control_waiting h1 h4 hc) hc hs with h | ⟨h, h'⟩
    · exact .inr (.inl h)
    · exact .inr (.inr ⟨h, h', rfl⟩)

/-! ## Publisher and heartbeat -/

theorem inside_pub : Relay.Inside (Step env I) (fun s : Main σ => s.pub) .pub := by
  refine ⟨?_, fun s a ha => ⟨_, .publisher s a ha⟩, ?_⟩
  · intro s s' h
    cases h with
    | publisher _ a ha => exact ha
  · intro b s s' hb h
    cases h with
    | publisher _ a ha => exact absurd rfl hb
    | workControl _ rs p w' keep hp hs _ => exact Relay.touched_put _ _ _
    | workShell _ p w' keep hp hs _ => exact Relay.touched_put _ _ _
    | stopPub _ hp => exact ⟨rfl, rfl, fun _ => List.prefix_refl _, fun _ => List.prefix_refl _⟩
    | waitPub _ hp _ => exact ⟨rfl, rfl, fun _ => List.prefix_refl _, fun _ => List.prefix_refl _⟩
    | _ => exact Relay.Touched.refl _

theorem inside_hb : Relay.Inside (Step env I) (fun s : Main σ => s.hb) .hb := by
  refine ⟨?_, fun s a ha => ⟨_, .heartbeat s a ha⟩, ?_⟩
  · intro s s' h
    cases h with
    | heartbeat _ a ha => exact ha
  · intro b s s' hb h
    cases h with
    | heartbeat _ a ha => exact absurd rfl hb
    | ping _ i m => exact Relay.touched_put _ _ _
    | stopHb _ hp => exact ⟨rfl, rfl, fun _ => List.prefix_refl _, fun _ => List.prefix_refl _⟩
    | waitHb _ hp _ => exact ⟨rfl, rfl, fun _ => List.prefix_refl _, fun _ => List.prefix_refl _⟩
    | _ => exact Relay.Touched.refl _

end Main

namespace Split

theorem log_step {a : SWho} {s s' : Split σ} (h : Step env I a s s') : s.log <+: s'.log := by
  cases h with
  | arriveShell _ q => exact List.prefix_append _ _
  | arriveControl _ q => exact List.prefix_append _ _
  | start _ hp => exact List.prefix_append _ _
  | stopSh _ hp => exact List.prefix_append _ _
  | takeControl _ q r hp hq => exact List.prefix_append _ _
  | takeShell _ r1 q r hp hq => exact List.prefix_append _ _
  | workControl _ p w' keep hp hs _ => exact List.prefix_append _ _
  | workShell _ r1 p w' keep hp hs _ => exact List.prefix_append _ _
  | _ => exact List.prefix_refl _

theorem log_exec (e : Execution (Step env I)) {n m : Nat} (h : n ≤ m) : (e.state n).log <+: (e.state m).log := by
  induction h with
  | refl => exact List.prefix_refl _
  | @step m _ ih =>
    have := e.ok m
    cases hw : e.who m with
    | none => rw [hw] at this; simp only at this; rw [this]; exact ih
    | some a => rw [hw] at this; exact ih.trans (log_step this)

/-- How many messages were received. -/
def count (c : Chan) (s : Split σ) : Nat := (takenFrom c s.log).length

theorem count_same {c : Chan} {s s' : Split σ} {es : List SEv} (h : s'.log = s.log ++ es) (he : takenFrom c es = []) :
    count c s' = count c s := by
  unfold count; rw [h, takenFrom_append, he, List.append_nil]

theorem count_le {c : Chan} {a : SWho} {s s' : Split σ} (h : Step env I a s s') : count c s ≤ count c s' := by
  obtain ⟨es, he⟩ := log_step h
  unfold count
  rw [← he, takenFrom_append, List.length_append]
  omega

theorem shell_waiting {st : Start σ} {s : Split σ} (hr : Reach env I st s) {k : Nat} (h : k < (arrivedOn .shell s.log).length)
    (hk : count .shell s ≤ k) : s.c.w.shellQ ≠ [] := by
  intro hq
  have := (qinv_reach hr).shell
  rw [hq, List.append_nil] at this
  unfold count at hk
  rw [this] at hk
  omega

theorem control_waiting {st : Start σ} {s : Split σ} (hr : Reach env I st s) {k : Nat} (h : k < (arrivedOn .control s.log).length)
    (hk : count .control s ≤ k) : s.c.controlQ ≠ [] := by
  intro hq
  have := (qinv_reach hr).control
  rw [hq, List.append_nil] at this
  unfold count at hk
  rw [this] at hk
  omega

/-! ## Shell messages -/

/-- How far the shell thread is from receiving a message. -/
def shellStage (s : Split σ) : Nat × K (World σ) Unit :=
  match s.spc with
  | .ready true _ => (1, .done (.ok ()))
  | .sampled true => (2, .done (.ok ()))
  | .poll => (3, .done (.ok ()))
  | .asked false => (4, .done (.ok ()))
  | .busy false => (5, s.c.prog .shell)
  | .over => (6, .done (.ok ()))
  | .echo => (7, .done (.ok ()))
  | .asked true => (8, .done (.ok ()))
  | .busy true => (9, s.c.prog .shell)
  | .ready false _ => (10, .done (.ok ()))
  | .sampled false => (11, .done (.ok ()))

theorem shellStage_same {s s' : Split σ} (h1 : s'.spc = s.spc) (h2 : s'.c.prog .shell = s.c.prog .shell) :
    shellStage s' = shellStage s := by
  unfold shellStage; rw [h1, h2]

theorem can_shell {s : Split σ} (hh : Healthy s) (hq : s.c.w.shellQ ≠ []) (ho : s.spc ≠ .over) :
    CanStep (Step env I) .shell s := by
  cases hs : s.spc with
  | poll => exact ⟨_, .sample0 s true hs (by simp [hq])⟩
  | sampled r0 =>
    cases r0 with
    | true => exact ⟨_, .sample1 s true hs (.inl rfl)⟩
    | false =>
      cases hc : s.ctl with
      | true => exact ⟨_, .sample1 s false hs (.inr hc)⟩
      | false => exact ⟨_, .nothing s hs hc⟩
  | ready r0 r1 =>
    cases r0 with
    | true =>
      cases h : s.c.w.shellQ with
      | nil => exact absurd h hq
      | cons q r => exact ⟨_, .takeShell s r1 q r hs h⟩
    | false => exact ⟨_, .skip s r1 hs⟩
  | busy r1 =>
    by_cases hd : s.c.prog .shell = .done (.ok ())
    · exact ⟨_, .doneShell s r1 hs hd⟩
    · obtain ⟨p', w', h⟩ := K.can_step (hh .shell) hd s.c.w
      exact ⟨_, .workShell s r1 p' w' _ hs h (fun _ => List.Sublist.refl _)⟩
  | asked r1 =>
    cases r1 with
    | true => exact ⟨_, .recvCtl s hs⟩
    | false => exact ⟨_, .again s hs⟩
  | echo => exact ⟨_, .sendCtl s hs⟩
  | over => exact absurd hs ho

theorem shell_step {k : Nat} {a : SWho} {s s' : Split σ} (hq : s.c.w.shellQ ≠ []) (hk : count .shell s ≤ k)
    (h : Step env I a s s') :
    Served (k + 1 - count .shell s', shellStage s') (k + 1 - count .shell s, shellStage s) ∨
      (a ≠ .shell ∧ (k + 1 - count .shell s', shellStage s') = (k + 1 - count .shell s, shellStage s)) := by
  have same : ∀ {s' : Split σ} {es : List SEv}, s'.log = s.log ++ es → takenFrom .shell es = [] → s'.spc = s.spc →
      s'.c.prog .shell = s.c.prog .shell →
      (k + 1 - count .shell s', shellStage s') = (k + 1 - count .shell s, shellStage s) := by
    intro s' es h1 h2 h3 h4
    rw [count_same h1 h2, shellStage_same h3 h4]
  cases h with
  | arriveShell _ q => exact .inr ⟨by simp, same rfl rfl rfl rfl⟩
  | arriveControl _ q => exact .inr ⟨by simp, same rfl rfl rfl rfl⟩
  | start _ hp => exact .inr ⟨by simp, same rfl rfl rfl rfl⟩
  | stopSh _ hp => exact .inr ⟨by simp, same rfl rfl rfl rfl⟩
  | takeControl _ q r hp h => exact .inr ⟨by simp, same (es := [.act (.took .control q)]) rfl rfl rfl rfl⟩
  | workControl _ p w' keep hp h' hk' =>
    have hle := count_le (c := .shell) (Step.workControl (env := env) (I := I) s p w' keep hp h' hk')
    have e1 : shellStage (s.work .control p w' keep) = shellStage s := shellStage_same rfl (by simp [Split.work, setProg])
    by_cases he : count .shell s = count .shell (s.work .control p w' keep)
    · exact .inr ⟨by simp, by rw [e1, ← he]⟩
    · exact .inl (.left _ _ (by omega))
  | sample0 _ r hp h =>
    refine .inl ?_
    have : r = true := h.2 hq
    subst this
    unfold shellStage; simp only [hp]
    exact served_stage rfl (by omega)
  | sample1 _ r0 hp _ =>
    refine .inl ?_
    unfold shellStage; simp only [hp]
    cases r0 <;> exact served_stage rfl (by omega)
  | nothing _ hp _ =>
    refine .inl ?_
    unfold shellStage; simp only [hp]
    exact served_stage rfl (by omega)
  | takeShell _ r1 q r hp h =>
    refine .inl (.left _ _ ?_)
    have : count .shell { s with
        c := { s.c with w := { s.c.w with shellQ := r }, prog := setProg s.c .shell (dispatch env I q .shell),
                        log := s.c.log ++ [.took .shell q] }
        spc := .busy r1, log := s.log ++ [.act (.took .shell q)] } = count .shell s + 1 := by
      simp [count, takenFrom_append, takenFrom]
    rw [this]
    omega
  | skip _ r1 hp =>
    refine .inl ?_
    unfold shellStage; simp only [hp]
    cases r1 <;> exact served_stage rfl (by omega)
  | workShell _ r1 p w' keep hp h' hk' =>
    refine .inl ?_
    have hle := count_le (c := .shell) (Step.workShell (env := env) (I := I) s r1 p w' keep hp h' hk')
    have e1 : shellStage (s.work .shell p w' keep) = ((if r1 then 9 else 5), p) := by
      unfold shellStage; simp only [Split.work, hp, setProg, if_true]; cases r1 <;> rfl
    have e2 : shellStage s = ((if r1 then 9 else 5), s.c.prog .shell) := by
      unfold shellStage; simp only [hp]; cases r1 <;> rfl
    rw [e1, e2]
    exact served_work hle hk ⟨_, _, h'⟩
  | doneShell _ r1 hp _ =>
    refine .inl ?_
    unfold shellStage; simp only [hp]
    cases r1 <;> exact served_stage rfl (by omega)
  | again _ hp =>
    refine .inl ?_
    unfold shellStage; simp only [hp]
    exact served_stage rfl (by omega)
  | recvCtl _ hp =>
    refine .inl ?_
    unfold shellStage; simp only [hp]
    exact served_stage rfl (by omega)
  | sendCtl _ hp =>
    refine .inl ?_
    unfold shellStage; simp only [hp]
    exact served_stage rfl (by omega)
  | _ => exact .inr ⟨by simp, same (es := []) (by simp) rfl rfl rfl⟩

theorem serves_shell {st : Start σ} (e : Execution (Step env I)) (h0 : e.state 0 = init st) (hf : Fair e .shell) (n k : Nat)
    (hk : k < (arrivedOn .shell (e.state n).log).length) (hh : ∀ m, n ≤ m → Healthy (e.state m)) :
    ∃ m, n ≤ m ∧ (k < count .shell (e.state m) ∨ (e.state m).spc = .over) := by
  refine progress served_wf e
    (fun s => Reach env I st s ∧ Healthy s ∧ k < (arrivedOn .shell s.log).length)
    (fun s => k < count .shell s ∨ s.spc = .over) (fun s => (k + 1 - count .shell s, shellStage s)) (fun _ => .shell) n
    (fun m hm => ⟨reach_exec e h0 m, hh m hm, Nat.lt_of_lt_of_le hk (Main.arrived_mono (log_exec e hm))⟩) (fun _ _ _ => hf) ?_ ?_
  · rintro s ⟨h1, h2, h3⟩ hg
    exact can_shell h2 (shell_waiting h1 h3 (Nat.not_lt.1 fun h => hg (.inl h))) fun h => hg (.inr h)
  · rintro a s s' ⟨h1, h2, h3⟩ _ hg hs
    have hc : count .shell s ≤ k := Nat.not_lt.1 fun h => hg (.inl h)
    rcases shell_step (shell_waiting h1 h3 hc) hc hs with h | ⟨h, h'⟩
    · exact .inr (.inl h)
    · exact .inr (.inr ⟨h, h', rfl⟩)

/-! ## Control messages -/

/-- The loop is left only after a stop request. -/
theorem stopping_reach {st : Start σ} {s : Split σ} (h : Reach env I st s)
    (hp : s.kpc ≠ .entry ∧ s.kpc ≠ .loop ∧ s.kpc ≠ .recv ∧ s.kpc ≠ .busy) : s.flag = true := by
  induction h with
  | init => simp [init] at hp
  | step hr hs ih =>
    cases hs with
    | start _ h => simp at hp
    | test _ h _ => simp at hp
    | leave _ h h' => exact h'
    | takeControl _ q r h _ => simp at hp
    | workControl _ p w' keep h _ _ => simp [Split.work, h] at hp
    | workShell _ r1 p w' keep h _ _ => simp only [Split.work]; rw [ih hp]; rfl
    | doneControl _ h _ => simp at hp
    | stopSh _ h => exact ih (by simp [h])
    | waitSh _ h _ => exact ih (by simp [h])
    | stopPub _ h => exact ih (by simp [h])
    | waitPub _ h _ => exact ih (by simp [h])
    | stopHb _ h => exact ih (by simp [h])
    | waitHb _ h _ => exact ih (by simp [h])
    | notify _ h => exact ih (by simp [h])
    | _ => exact ih hp

/-- How far the control thread is from receiving a message. -/
def controlStage (s : Split σ) : Nat × K (World σ) Unit :=
  match s.kpc with
  | .recv => (0, .done (.ok ()))
  | .loop => (1, .done (.ok ()))
  | .busy => (2, s.c.prog .control)
  | _ => (3, .done (.ok ()))

theorem controlStage_same {s s' : Split σ} (h1 : s'.kpc = s.kpc) (h2 : s'.c.prog .control = s.c.prog .control) :
    controlStage s' = controlStage s := by
  unfold controlStage; rw [h1, h2]

/-- A stop was requested, and the control thread has begun. -/
def Asked (s : Split σ) : Prop := s.flag = true ∧ s.kpc ≠ .entry

theorem control_pc {st : Start σ} {s : Split σ} (hr : Reach env I st s) (ha : ¬ Asked s) :
    s.kpc = .entry ∨ s.kpc = .loop ∨ s.kpc = .recv ∨ s.kpc = .busy := by
  apply Classical.byContradiction
  intro h
  simp only [not_or] at h
  exact ha ⟨stopping_reach hr h, h.1⟩

theorem can_control {st : Start σ} {s : Split σ} (hr : Reach env I st s) (hh : Healthy s) (hq : s.c.controlQ ≠ []) (ha : ¬ Asked s) :
    CanStep (Step env I) .control s := by
  rcases control_pc hr ha with h | h | h | h
  · exact ⟨_, .start s h⟩
  · cases hf : s.flag with
    | true => exact absurd ⟨hf, by simp [h]⟩ ha
    | false => exact ⟨_, .test s h hf⟩
  · cases hc : s.c.controlQ with
    | nil => exact absurd hc hq
    | cons q r => exact ⟨_, .takeControl s q r h hc⟩
  · by_cases hd : s.c.prog .control = .done (.ok ())
    · exact ⟨_, .doneControl s h hd⟩
    · obtain ⟨p', w', h'⟩ := K.can_step (hh .control) hd s.c.w
      exact ⟨_, .workControl s p' w' _ h h' (fun _ => List.Sublist.refl _)⟩

theorem control_step {st : Start σ} {k : Nat} {a : SWho} {s s' : Split σ} (hr : Reach env I st s) (ha : ¬ Asked s)
    (hk : count .control s ≤ k) (h : Step env I a s s') :
    Served (k + 1 - count .control s', controlStage s') (k + 1 - count .control s, controlStage s) ∨
      (a ≠ .control ∧ (k + 1 - count .control s', controlStage s') = (k + 1 - count .control s, controlStage s)) := by
  have hpc := control_pc hr ha
  have hno : ∀ {x}, s.kpc = x → x ≠ .entry → x ≠ .loop → x ≠ .recv → x ≠ .busy → False := by
    intro x hx h1 h2 h3 h4
    rw [hx] at hpc
    rcases hpc with h | h | h | h
    · exact h1 h
    · exact h2 h
    · exact h3 h
    · exact h4 h
  have same : ∀ {s' : Split σ} {es : List SEv}, s'.log = s.log ++ es → takenFrom .control es = [] → s'.kpc = s.kpc →
      s'.c.prog .control = s.c.prog .control →
      (k + 1 - count .control s', controlStage s') = (k + 1 - count .control s, controlStage s) := by
    intro s' es h1 h2 h3 h4
    rw [count_same h1 h2, controlStage_same h3 h4]
  cases h with
  | arriveShell _ q => exact .inr ⟨by simp, same rfl rfl rfl rfl⟩
  | arriveControl _ q => exact .inr ⟨by simp, same rfl rfl rfl rfl⟩
  | start _ hp =>
    refine .inl ?_
    unfold controlStage; simp only [hp]
    exact served_stage (count_same rfl rfl).symm (by omega)
  | test _ hp _ =>
    refine .inl ?_
    unfold controlStage; simp only [hp]
    exact served_stage rfl (by omega)
  | leave _ hp h => exact absurd ⟨h, by simp [hp]⟩ ha
  | takeControl _ q r hp h =>
    refine .inl (.left _ _ ?_)
    have : count .control { s with
        c := { s.c with controlQ := r, prog := setProg s.c .control (dispatch env I q .control),
                        log := s.c.log ++ [.took .control q] }
        kpc := .busy, log := s.log ++ [.act (.took .control q)] } = count .control s + 1 := by
      simp [count, takenFrom_append, takenFrom]
    rw [this]
    omega
  | workControl _ p w' keep hp h' hk' =>
    refine .inl ?_
    have hle := count_le (c := .control) (Step.workControl (env := env) (I := I) s p w' keep hp h' hk')
    have e1 : controlStage (s.work .control p w' keep) = (2, p) := by
      unfold controlStage; simp only [Split.work, hp, setProg, if_true]
    have e2 : controlStage s = (2, s.c.prog .control) := by
      unfold controlStage; simp only [hp]
    rw [e1, e2]
    exact served_work hle hk ⟨_, _, h'⟩
  | doneControl _ hp _ =>
    refine .inl ?_
    unfold controlStage; simp only [hp]
    exact served_stage rfl (by omega)
  | stopSh _ hp => exact (hno hp (by simp) (by simp) (by simp) (by simp)).elim
  | waitSh _ hp _ => exact (hno hp (by simp) (by simp) (by simp) (by simp)).elim
  | stopPub _ hp => exact (hno hp (by simp) (by simp) (by simp) (by simp)).elim
  | waitPub _ hp _ => exact (hno hp (by simp) (by simp) (by simp) (by simp)).elim
  | stopHb _ hp => exact (hno hp (by simp) (by simp) (by simp) (by simp)).elim
  | waitHb _ hp _ => exact (hno hp (by simp) (by simp) (by simp) (by simp)).elim
  | notify _ hp => exact (hno hp (by simp) (by simp) (by simp) (by simp)).elim
  | takeShell _ r1 q r hp h => exact .inr ⟨by simp, same (es := [.act (.took .shell q)]) rfl rfl rfl (by simp [setProg])⟩
  | workShell _ r1 p w' keep hp h' hk' =>
    have hle := count_le (c := .control) (Step.workShell (env := env) (I := I) s r1 p w' keep hp h' hk')
    have e1 : controlStage (s.work .shell p w' keep) = controlStage s := controlStage_same rfl (by simp [Split.work, setProg])
    by_cases he : count .control s = count .control (s.work .shell p w' keep)
    · exact .inr ⟨by simp, by rw [e1, ← he]⟩
    · exact .inl (.left _ _ (by omega))
  | _ => exact .inr ⟨by simp, same (es := []) (by simp) rfl rfl rfl⟩

theorem serves_control {st : Start σ} (e : Execution (Step env I)) (h0 : e.state 0 = init st) (hf : Fair e .control) (n k : Nat)
    (hk : k < (arrivedOn .control (e.state n).log).length) (hh : ∀ m, n ≤ m → Healthy (e.state m)) :
    ∃ m, n ≤ m ∧ (k < count .control (e.state m) ∨ Asked (e.state m)) := by
  refine progress served_wf e
    (fun s => Reach env I st s ∧ Healthy s ∧ k < (arrivedOn .control s.log).length)
    (fun s => k < count .control s ∨ Asked s) (fun s => (k + 1 - count .control s, controlStage s)) (fun _ => .control) n
    (fun m hm => ⟨reach_exec e h0 m, hh m hm, Nat.lt_of_lt_of_le hk (Main.arrived_mono (log_exec e hm))⟩) (fun _ _ _ => hf) ?_ ?_
  · rintro s ⟨h1, h2, h3⟩ hg
    exact can_control h1 h2 (control_waiting h1 h3 (Nat.not_lt.1 fun h => hg (.inl h))) fun h => hg (.inr h)
  · rintro a s s' ⟨h1, h2, h3⟩ _ hg hs
    have hc : count .control s ≤ k := Nat.not_lt.1 fun h => hg (.inl h)
    rcases control_step h1 (fun h => hg (.inr h)) hc hs with h | ⟨h, h'⟩
    · exact .inr (.inl h)
    · exact .inr (.inr ⟨h, h', rfl⟩)

/-! ## Publisher and heartbeat -/

theorem inside_pub : Relay.Inside (Step env I) (fun s : Split σ => s.pub) .pub := by
  refine ⟨?_, fun s a ha => ⟨_, .publisher s a ha⟩, ?_⟩
  · intro s s' h
    cases h with
    | publisher _ a ha => exact ha
  · intro b s s' hb h
    cases h with
    | publisher _ a ha => exact absurd rfl hb
    | workControl _ p w' keep hp hs _ => exact (Relay.touched_put _ _ _).trans (Relay.touched_put _ _ _)
    | workShell _ r1 p w' keep hp hs _ => exact (Relay.touched_put _ _ _).trans (Relay.touched_put _ _ _)
    | stopPub _ hp => exact ⟨rfl, rfl, fun _ => List.prefix_refl _, fun _ => List.prefix_refl _⟩
    | waitPub _ hp _ => exact ⟨rfl, rfl, fun _ => List.prefix_refl _, fun _ => List.prefix_refl _⟩
    | _ => exact Relay.Touched.refl _

theorem inside_hb : Relay.Inside (Step env I) (fun s : Split σ => s.hb) .hb := by
  refine ⟨?_, fun s a ha => ⟨_, .heartbeat s a ha⟩, ?_⟩
  · intro s s' h
    cases h with
    | heartbeat _ a ha => exact ha
  · intro b s s' hb h
    cases h with
    | heartbeat _ a ha => exact absurd rfl hb
    | ping _ i m => exact Relay.touched_put _ _ _
    | stopHb _ hp => exact ⟨rfl, rfl, fun _ => List.prefix_refl _, fun _ => List.prefix_refl _⟩
    | waitHb _ hp _ => exact ⟨rfl, rfl, fun _ => List.prefix_refl _, fun _ => List.prefix_refl _⟩
    | _ => exact Relay.Touched.refl _

end Split

end Xeus
