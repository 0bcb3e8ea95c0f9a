import Verif.Server.Lemmas

/-!
# The default server: publisher, heartbeat and the end (no property statements here)
-/

namespace Xeus

open Spec K

variable {σ : Type} {env : Env} {I : Interp σ}

namespace Main

/-- The state of the stop protocol. -/
def Proto (s : Main σ) : Prop :=
  match s.pc with
  | .waitPub => s.pub.Commanded ∧ s.hb.Idle
  | .stopHb => s.pub.Ended ∧ s.hb.Idle
  | .waitHb => s.pub.Ended ∧ s.hb.Commanded
  | .exited => s.pub.Ended ∧ s.hb.Ended
  | _ => s.pub.Idle ∧ s.hb.Idle

structure RInv (s : Main σ) : Prop where
  pubCounted : s.pub.Counted
  pubSeen : s.pub.Seen
  hbCounted : s.hb.Counted
  hbSeen : s.hb.Seen
  proto : Proto s
  sub : (s.pub.given ()).Sublist (pubsOf s.c.w.out)
  len : (s.pub.given ()).length + s.dropped = (pubsOf s.c.w.out).length

theorem Proto.main {s s' : Main σ} (h : Proto s) (h1 : s'.pub = s.pub) (h2 : s'.hb = s.hb)
    (hp : s.pc ≠ .waitPub ∧ s.pc ≠ .stopHb ∧ s.pc ≠ .waitHb ∧ s.pc ≠ .exited)
    (hp' : s'.pc ≠ .waitPub ∧ s'.pc ≠ .stopHb ∧ s'.pc ≠ .waitHb ∧ s'.pc ≠ .exited) : Proto s' := by
  unfold Proto at h ⊢
  split at h <;> simp_all

theorem RInv.main {s s' : Main σ} (h : RInv s) (h1 : s'.pub = s.pub) (h2 : s'.hb = s.hb)
    (h3 : s'.c.w.out = s.c.w.out) (h4 : s'.dropped = s.dropped)
    (hp : s.pc ≠ .waitPub ∧ s.pc ≠ .stopHb ∧ s.pc ≠ .waitHb ∧ s.pc ≠ .exited)
    (hp' : s'.pc ≠ .waitPub ∧ s'.pc ≠ .stopHb ∧ s'.pc ≠ .waitHb ∧ s'.pc ≠ .exited) : RInv s' :=
  ⟨by rw [h1]; exact h.pubCounted, by rw [h1]; exact h.pubSeen, by rw [h2]; exact h.hbCounted, by rw [h2]; exact h.hbSeen,
    h.proto.main h1 h2 hp hp', by rw [h1, h3]; exact h.sub, by rw [h1, h3, h4]; exact h.len⟩

theorem RInv.world {s s' : Main σ} (h : RInv s) (h1 : s'.pub = s.pub) (h2 : s'.hb = s.hb)
    (h3 : s'.c.w.out = s.c.w.out) (h4 : s'.dropped = s.dropped) (hp : s'.pc = s.pc) : RInv s' :=
  ⟨by rw [h1]; exact h.pubCounted, by rw [h1]; exact h.pubSeen, by rw [h2]; exact h.hbCounted, by rw [h2]; exact h.hbSeen,
    by unfold Proto; rw [h1, h2, hp]; exact h.proto, by rw [h1, h3]; exact h.sub, by rw [h1, h3, h4]; exact h.len⟩

theorem RInv.work {s : Main σ} (h : RInv s) {t : Chan} {p : K (World σ) Unit} {w' : World σ} {keep : List Multipart}
    (hk : s.c.w.out <+: w'.out) (hs : keep.Sublist (pubsOf (w'.out.drop s.c.w.out.length)))
    (hp : s.pc ≠ .waitPub ∧ s.pc ≠ .stopHb ∧ s.pc ≠ .waitHb ∧ s.pc ≠ .exited) : RInv (s.work t p w' keep) := by
  have ho : pubsOf w'.out = pubsOf s.c.w.out ++ pubsOf (w'.out.drop s.c.w.out.length) := by
    rw [← pubsOf_append, ← prefix_drop hk]
  refine ⟨h.pubCounted.put _ _, h.pubSeen.put _ _, h.hbCounted, h.hbSeen, ?_, ?_, ?_⟩
  · have := h.proto
    unfold Proto at this ⊢
    simp only [Main.work]
    split at this <;> simp_all
    exact this.1.put _ _
  · show (Relay.upd s.pub.given () (s.pub.given () ++ keep) ()).Sublist _
    simp only [Relay.upd, if_true, Main.work]
    rw [ho]
    exact h.sub.append hs
  · show (Relay.upd s.pub.given () (s.pub.given () ++ keep) ()).length + _ = _
    simp only [Relay.upd, if_true, Main.work, List.length_append]
    rw [ho, List.length_append]
    have h1 := h.len
    have h2 := hs.length_le
    omega

theorem rinv_reach {st : Start σ} {s : Main σ} (h : Reach env I st s) : RInv s := by
  induction h with
  | start => exact ⟨Relay.counted_init, Relay.seen_init, Relay.counted_init, Relay.seen_init,
      ⟨Relay.idle_init, Relay.idle_init⟩, by rw [show (init st).c.w.out = [] from st.out]; exact .slnil,
      by rw [show (init st).c.w.out = [] from st.out]; rfl⟩
  | step hr hs ih =>
    cases hs with
    | arriveShell _ q => exact ih.world rfl rfl rfl rfl rfl
    | arriveControl _ q => exact ih.world rfl rfl rfl rfl rfl
    | arriveStdin _ q => exact ih.world rfl rfl rfl rfl rfl
    | ping _ i m =>
      refine ⟨ih.pubCounted, ih.pubSeen, ih.hbCounted.put _ _, ih.hbSeen.put _ _, ?_, ih.sub, ih.len⟩
      have := ih.proto
      unfold Proto at this ⊢
      simp only
      split at this <;> simp_all <;> exact this.2.put _ _
    | publisher _ a ha =>
      have hg := Relay.step_given ha
      refine ⟨ih.pubCounted.step ha, ih.pubSeen.step ha, ih.hbCounted, ih.hbSeen, ?_, by rw [hg]; exact ih.sub, by rw [hg]; exact ih.len⟩
      have := ih.proto
      unfold Proto at this ⊢
      simp only
      split at this <;> simp_all
      · exact this.1.step ha
      · exact (Relay.over_stuck this.1.2.2 ha).elim
      · exact (Relay.over_stuck this.1.2.2 ha).elim
      · exact (Relay.over_stuck this.1.2.2 ha).elim
      · exact this.1.step ha
    | heartbeat _ a ha =>
      refine ⟨ih.pubCounted, ih.pubSeen, ih.hbCounted.step ha, ih.hbSeen.step ha, ?_, ih.sub, ih.len⟩
      have := ih.proto
      unfold Proto at this ⊢
      simp only
      split at this <;> simp_all
      · exact this.2.step ha
      · exact this.2.step ha
      · exact this.2.step ha
      · exact (Relay.over_stuck this.2.2.2 ha).elim
      · exact this.2.step ha
    | enter _ hp _ => exact ih.main rfl rfl rfl rfl (by simp [hp]) (by simp)
    | sampleControl _ rc hp _ => exact ih.main rfl rfl rfl rfl (by simp [hp]) (by simp)
    | sampleShell _ rc rs hp _ _ => exact ih.main rfl rfl rfl rfl (by simp [hp]) (by simp)
    | nothing _ hp _ => exact ih.main rfl rfl rfl rfl (by simp [hp]) (by simp)
    | takeControl _ rs q r hp hq => exact ih.main rfl rfl rfl rfl (by simp [hp]) (by simp)
    | noControl _ rs hp => exact ih.main rfl rfl rfl rfl (by simp [hp]) (by simp)
    | workControl _ rs p w' keep hp hs hk => exact ih.work (creach_kept (kinv_reach hr).conc hs).1 hk (by simp [hp])
    | doneControl _ rs hp hd => exact ih.main rfl rfl rfl rfl (by simp [hp]) (by simp)
    | shellNext _ hp _ => exact ih.main rfl rfl rfl rfl (by simp [hp]) (by simp)
    | noShell _ rs hp _ => exact ih.main rfl rfl rfl rfl (by simp [hp]) (by simp)
    | takeShell _ q r hp hq => exact ih.main rfl rfl rfl rfl (by simp [hp]) (by simp)
    | workShell _ p w' keep hp hs hk => exact ih.work (creach_kept (kinv_reach hr).conc hs).1 hk (by simp [hp])
    | doneShell _ hp hd => exact ih.main rfl rfl rfl rfl (by simp [hp]) (by simp)
    | leave _ hp _ => exact ih.main rfl rfl rfl rfl (by simp [hp]) (by simp)
    | stopPub _ hp =>
      refine ⟨ih.pubCounted, ih.pubSeen, ih.hbCounted, ih.hbSeen, ?_, ih.sub, ih.len⟩
      have := ih.proto
      unfold Proto at this ⊢
      rw [hp] at this
      exact ⟨this.1.command, this.2⟩
    | waitPub _ hp ha =>
      refine ⟨ih.pubCounted, ih.pubSeen, ih.hbCounted, ih.hbSeen, ?_, ih.sub, ih.len⟩
      have := ih.proto
      unfold Proto at this ⊢
      rw [hp] at this
      exact ⟨this.1.answered ha, this.2⟩
    | stopHb _ hp =>
      refine ⟨ih.pubCounted, ih.pubSeen, ih.hbCounted, ih.hbSeen, ?_, ih.sub, ih.len⟩
      have := ih.proto
      unfold Proto at this ⊢
      rw [hp] at this
      exact ⟨this.1, this.2.command⟩
    | waitHb _ hp ha =>
      refine ⟨ih.pubCounted, ih.pubSeen, ih.hbCounted, ih.hbSeen, ?_, ih.sub, ih.len⟩
      have := ih.proto
      unfold Proto at this ⊢
      rw [hp] at this
      exact ⟨this.1, this.2.answered ha⟩

end Main

/-! ## Programs end -/

/-- One program results from another one by a step. -/
def Next (p' p : K (World σ) Unit) : Prop := ∃ w w', p.step w = some (p', w')

theorem next_wf : WellFounded (Next (σ := σ)) := by
  refine ⟨fun p => ?_⟩
  have hd : ∀ r, Acc (Next (σ := σ)) (.done r) := fun r => ⟨_, fun _ ⟨_, _, h⟩ => by cases h⟩
  induction p with
  | done r => exact hd r
  | act f k ih =>
    refine ⟨_, ?_⟩
    rintro p' ⟨w, w', h⟩
    simp only [K.step, Option.some.injEq] at h
    rcases hf : f w with ⟨r, w₁⟩
    rw [hf] at h
    cases r <;> simp only [Prod.mk.injEq] at h <;> obtain ⟨rfl, _⟩ := h
    · exact ih _
    · exact ih _
    · exact hd _
    · exact hd _

/-- The order used for termination. -/
abbrev Later : Nat × K (World σ) Unit → Nat × K (World σ) Unit → Prop := Prod.Lex (· < ·) Next

theorem later_wf : WellFounded (Later (σ := σ)) := ⟨fun x => Prod.lexAccessible (Nat.lt_wfRel.wf.apply x.1) (fun b => next_wf.apply b) x.2⟩

/-- A program that can go on. -/
theorem K.can_step {p : K (World σ) Unit} (h : ∀ r, p = .done r → r = .ok ()) (hn : p ≠ .done (.ok ())) (w : World σ) :
    ∃ p' w', p.step w = some (p', w') := by
  cases p with
  | done r => exact absurd (by rw [h r rfl]) hn
  | act f k => exact ⟨_, _, rfl⟩

namespace Main

/-- No handler has failed. -/
def Healthy (s : Main σ) : Prop := ∀ t r, s.c.prog t = .done r → r = .ok ()

/-- How far the server is from the end after a stop request. -/
def rank (s : Main σ) : Nat × K (World σ) Unit :=
  match s.pc with
  | .control _ => (35, s.c.prog .control)
  | .shell => (34, s.c.prog .shell)
  | .between _ => (33, .done (.ok ()))
  | .loop => (32, .done (.ok ()))
  | .stopPub => (31, .done (.ok ()))
  | .waitPub => (15 + s.pub.rank, .done (.ok ()))
  | .stopHb => (14, .done (.ok ()))
  | .waitHb => (1 + s.hb.rank, .done (.ok ()))
  | _ => (0, .done (.ok ()))

/-- Who is to take the next step. -/
def help (s : Main σ) : Who :=
  match s.pc with
  | .waitPub => if s.pub.pc = .over then .main else .pub
  | .waitHb => if s.hb.pc = .over then .main else .hb
  | _ => .main

theorem Commanded_ack {ι : Type} [DecidableEq ι] {a : Relay ι} (h : a.Commanded) (ho : a.pc = .over) : a.ack = true := by
  rcases h with ⟨_, _, _, h, _⟩ | ⟨_, _, h⟩ | ⟨_, h, _⟩
  · exact absurd ho h
  · rw [ho] at h; cases h
  · exact h

theorem ack_over {ι : Type} [DecidableEq ι] {a : Relay ι} (h : a.Commanded) (ho : a.ack = true) : a.pc = .over := by
  rcases h with ⟨_, h, _⟩ | ⟨_, h, _⟩ | ⟨_, _, h⟩
  · rw [ho] at h; cases h
  · rw [ho] at h; cases h
  · exact h

theorem can_help {st : Start σ} {s : Main σ} (hr : Reach env I st s) (hs : stopAsked s.c.w) (hh : Healthy s) (hg : s.pc ≠ .exited) :
    CanStep (Step env I) (help s) s := by
  have hri := rinv_reach hr
  have hp := hri.proto
  have hst := (stopinv_reach hr).pc hs
  unfold Proto at hp
  unfold help
  cases hpc : s.pc with
  | loop => exact ⟨_, .leave s hpc hs⟩
  | polling => exact absurd hpc hst.1
  | sampled rc => exact absurd hpc (hst.2.1 _)
  | polled rc rs => exact absurd hpc (hst.2.2.1 _ _)
  | recv => exact absurd hpc hst.2.2.2
  | exited => exact absurd hpc hg
  | control rs =>
    by_cases hd : s.c.prog .control = .done (.ok ())
    · exact ⟨_, .doneControl s rs hpc hd⟩
    · obtain ⟨p', w', h⟩ := K.can_step (hh .control) hd s.c.w
      exact ⟨_, .workControl s rs p' w' _ hpc h (List.Sublist.refl _)⟩
  | shell =>
    by_cases hd : s.c.prog .shell = .done (.ok ())
    · exact ⟨_, .doneShell s hpc hd⟩
    · obtain ⟨p', w', h⟩ := K.can_step (hh .shell) hd s.c.w
      exact ⟨_, .workShell s p' w' _ hpc h (List.Sublist.refl _)⟩
  | between rs => exact ⟨_, .noShell s rs hpc (.inr hs)⟩
  | stopPub => exact ⟨_, .stopPub s hpc⟩
  | stopHb => exact ⟨_, .stopHb s hpc⟩
  | waitPub =>
    rw [hpc] at hp
    simp only
    split
    · rename_i ho; exact ⟨_, .waitPub s hpc (Commanded_ack hp.1 ho)⟩
    · rename_i ho
      obtain ⟨a, ha⟩ := Relay.can_step hri.pubSeen ho
      exact ⟨_, .publisher s a ha⟩
  | waitHb =>
    rw [hpc] at hp
    simp only
    split
    · rename_i ho; exact ⟨_, .waitHb s hpc (Commanded_ack hp.2 ho)⟩
    · rename_i ho
      obtain ⟨a, ha⟩ := Relay.can_step hri.hbSeen ho
      exact ⟨_, .heartbeat s a ha⟩

theorem rank_world {s s' : Main σ} (h1 : s'.pc = s.pc) (h2 : s'.c.prog = s.c.prog) (h3 : s'.pub.pc = s.pub.pc)
    (h4 : s'.hb.pc = s.hb.pc) : rank s' = rank s ∧ help s' = help s := by
  have e1 : s'.pub.rank = s.pub.rank := by unfold Relay.rank; rw [h3]
  have e2 : s'.hb.rank = s.hb.rank := by unfold Relay.rank; rw [h4]
  unfold rank help
  rw [h1, h2, h3, h4, e1, e2]
  exact ⟨rfl, rfl⟩

theorem help_ne_world (s : Main σ) : Who.world ≠ help s := by
  unfold help
  split
  · split <;> simp
  · split <;> simp
  · simp

theorem rank_le9 {ι : Type} (a : Relay ι) : a.rank ≤ 9 := by
  unfold Relay.rank
  split <;> omega

theorem rank_dec {st : Start σ} {a : Who} {s s' : Main σ} (hr : Reach env I st s) (hs : stopAsked s.c.w)
    (h : Step env I a s s') : s'.pc = .exited ∨ Later (rank s') (rank s) ∨
      (a ≠ help s ∧ rank s' = rank s ∧ help s' = help s) := by
  have hri := rinv_reach hr
  have hp := hri.proto
  have hst := (stopinv_reach hr).pc hs
  unfold Proto at hp
  cases h with
  | arriveShell _ q => exact .inr (.inr ⟨help_ne_world s, rank_world rfl rfl rfl rfl⟩)
  | arriveControl _ q => exact .inr (.inr ⟨help_ne_world s, rank_world rfl rfl rfl rfl⟩)
  | arriveStdin _ q => exact .inr (.inr ⟨help_ne_world s, rank_world rfl rfl rfl rfl⟩)
  | ping _ i m => exact .inr (.inr ⟨help_ne_world s, rank_world rfl rfl rfl rfl⟩)
  | publisher _ a ha =>
    by_cases hw : s.pc = .waitPub
    · rw [hw] at hp
      refine .inr (.inl ?_)
      unfold rank
      rw [hw]
      exact .left _ _ (Nat.add_lt_add_left (Relay.rank_step hp.1 ha) _)
    · refine .inr (.inr ⟨?_, ?_, ?_⟩)
      · unfold help; split
        · rename_i h; exact absurd h hw
        · split <;> simp
        · simp
      · unfold rank; dsimp only; split <;> simp_all
      · unfold help; dsimp only; split <;> simp_all
  | heartbeat _ a ha =>
    by_cases hw : s.pc = .waitHb
    · rw [hw] at hp
      refine .inr (.inl ?_)
      unfold rank
      rw [hw]
      exact .left _ _ (Nat.add_lt_add_left (Relay.rank_step hp.2 ha) _)
    · refine .inr (.inr ⟨?_, ?_, ?_⟩)
      · unfold help; split
        · split <;> simp
        · rename_i h; exact absurd h hw
        · simp
      · unfold rank; dsimp only; split <;> simp_all
      · unfold help; dsimp only; split <;> simp_all
  | enter _ hp' hn => exact absurd hs hn
  | sampleControl _ rc hp' _ => exact absurd hp' hst.1
  | sampleShell _ rc rs hp' _ _ => exact absurd hp' (hst.2.1 _)
  | nothing _ hp' _ => exact absurd hp' (hst.2.1 _)
  | takeControl _ rs q r hp' _ => exact absurd hp' (hst.2.2.1 _ _)
  | noControl _ rs hp' => exact absurd hp' (hst.2.2.1 _ _)
  | workControl _ rs p w' keep hp' h' _ =>
    refine .inr (.inl ?_)
    unfold rank
    simp only [Main.work, hp', setProg, if_true]
    exact .right _ ⟨_, _, h'⟩
  | doneControl _ rs hp' _ =>
    refine .inr (.inl ?_)
    unfold rank
    simp only [hp']
    exact .left _ _ (by omega)
  | shellNext _ hp' hn => exact absurd hs hn
  | noShell _ rs hp' _ =>
    refine .inr (.inl ?_)
    unfold rank
    simp only [hp']
    exact .left _ _ (by omega)
  | takeShell _ q r hp' _ => exact absurd hp' hst.2.2.2
  | workShell _ p w' keep hp' h' _ =>
    refine .inr (.inl ?_)
    unfold rank
    simp only [Main.work, hp', setProg, if_true]
    exact .right _ ⟨_, _, h'⟩
  | doneShell _ hp' _ =>
    refine .inr (.inl ?_)
    unfold rank
    simp only [hp']
    exact .left _ _ (by omega)
  | leave _ hp' _ =>
    refine .inr (.inl ?_)
    unfold rank
    simp only [hp']
    exact .left _ _ (by omega)
  | stopPub _ hp' =>
    refine .inr (.inl ?_)
    unfold rank
    simp only [hp']
    have := rank_le9 s.pub.command
    exact .left _ _ (by omega)
  | waitPub _ hp' _ =>
    refine .inr (.inl ?_)
    unfold rank
    simp only [hp']
    exact .left _ _ (by omega)
  | stopHb _ hp' =>
    refine .inr (.inl ?_)
    unfold rank
    simp only [hp']
    have := rank_le9 s.hb.command
    exact .left _ _ (by omega)
  | waitHb _ hp' _ => exact .inl rfl

theorem stop_stays {st : Start σ} {a : Who} {s s' : Main σ} (hr : Reach env I st s) (hs : stopAsked s.c.w)
    (h : Step env I a s s') : stopAsked s'.c.w := by
  cases h with
  | workControl _ rs p w' keep hp' h' _ => exact (creach_kept (kinv_reach hr).conc h').1.subset hs
  | workShell _ p w' keep hp' h' _ => exact (creach_kept (kinv_reach hr).conc h').1.subset hs
  | _ => exact hs

end Main

end Xeus
