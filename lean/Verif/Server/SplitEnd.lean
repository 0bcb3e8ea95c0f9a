import Verif.Server.SplitLemmas
import Verif.Server.Live

/-!
# The split servers: the end (no property statements here)
-/

namespace Xeus

open Spec K

variable {σ : Type} {env : Env} {I : Interp σ}

namespace Split

/-- The control thread is going to leave its loop. -/
def Leaving (s : Split σ) : Prop := s.flag = true ∧ s.kpc ≠ .entry ∧ (s.kpc = .recv → s.c.controlQ ≠ [])

theorem leaving_step {a : SWho} {s s' : Split σ} (h : Leaving s) (hs : Step env I a s s') : Leaving s' := by
  obtain ⟨h1, h2, h3⟩ := h
  cases hs with
  | arriveControl _ q => exact ⟨h1, h2, fun _ => by simp⟩
  | start _ hp => exact absurd hp h2
  | test _ hp hf => rw [h1] at hf; cases hf
  | leave _ hp hf => exact ⟨h1, by simp, by simp⟩
  | takeControl _ q r hp hq => exact ⟨h1, by simp, by simp⟩
  | workControl _ p w' keep hp hs _ => exact ⟨by simp [Split.work, h1], h2, h3⟩
  | workShell _ r1 p w' keep hp hs _ => exact ⟨by simp [Split.work, h1], h2, h3⟩
  | doneControl _ hp hd => exact ⟨h1, by simp, by simp⟩
  | stopSh _ hp => exact ⟨h1, by simp, by simp⟩
  | waitSh _ hp _ => exact ⟨h1, by simp, by simp⟩
  | stopPub _ hp => exact ⟨h1, by simp, by simp⟩
  | waitPub _ hp _ => exact ⟨h1, by simp, by simp⟩
  | stopHb _ hp => exact ⟨h1, by simp, by simp⟩
  | waitHb _ hp _ => exact ⟨h1, by simp, by simp⟩
  | notify _ hp => exact ⟨h1, by simp, by simp⟩
  | _ => exact ⟨h1, h2, h3⟩

/-- How far the shell thread is from the end after the command. -/
def srank : ShellPc → Nat
  | .ready true false => 10
  | .busy false => 9
  | .asked false => 8
  | .poll => 7
  | .sampled _ => 6
  | .ready _ _ => 5
  | .busy true => 4
  | .asked true => 3
  | .echo => 2
  | .over => 1

theorem srank_le (p : ShellPc) : srank p ≤ 10 := by unfold srank; split <;> omega

/-- No handler has failed. -/
def Healthy (s : Split σ) : Prop := ∀ t r, s.c.prog t = .done r → r = .ok ()

/-- How far the server is from the end. -/
def rank (s : Split σ) : Nat × K (World σ) Unit :=
  match s.kpc with
  | .recv => (60, .done (.ok ()))
  | .busy => (59, s.c.prog .control)
  | .loop => (58, .done (.ok ()))
  | .stopSh => (57, .done (.ok ()))
  | .waitSh => (30 + srank s.spc, match s.spc with | .busy _ => s.c.prog .shell | _ => .done (.ok ()))
  | .stopPub => (29, .done (.ok ()))
  | .waitPub => (15 + s.pub.rank, .done (.ok ()))
  | .stopHb => (14, .done (.ok ()))
  | .waitHb => (2 + s.hb.rank, .done (.ok ()))
  | .notify => (1, .done (.ok ()))
  | _ => (0, .done (.ok ()))

/-- Who is to take the next step. -/
def help (s : Split σ) : SWho :=
  match s.kpc with
  | .waitSh => if s.spc = .over then .control else .shell
  | .waitPub => if s.pub.pc = .over then .control else .pub
  | .waitHb => if s.hb.pc = .over then .control else .hb
  | _ => .control

theorem help_ne_world (s : Split σ) : SWho.world ≠ help s := by
  unfold help
  split
  · split <;> simp
  · split <;> simp
  · split <;> simp
  · simp

theorem can_help {st : Start σ} {s : Split σ} (hr : Reach env I st s) (hl : Leaving s) (hn : NoDrain s) (hh : Healthy s)
    (hg : s.kpc ≠ .over) : CanStep (Step env I) (help s) s := by
  have hri := rinv_reach hr
  have hp := hri.proto
  obtain ⟨hf, hl2, hl3⟩ := hl
  unfold Proto at hp
  unfold help
  cases hk : s.kpc with
  | entry => exact absurd hk hl2
  | loop => exact ⟨_, .leave s hk hf⟩
  | recv =>
    cases hq : s.c.controlQ with
    | nil => exact absurd hq (hl3 hk)
    | cons q r => exact ⟨_, .takeControl s q r hk hq⟩
  | busy =>
    by_cases hd : s.c.prog .control = .done (.ok ())
    · exact ⟨_, .doneControl s hk hd⟩
    · obtain ⟨p', w', h⟩ := K.can_step (hh .control) hd s.c.w
      exact ⟨_, .workControl s p' w' _ hk h (fun _ => List.Sublist.refl _)⟩
  | stopSh => exact ⟨_, .stopSh s hk⟩
  | waitSh =>
    rw [hk] at hp
    have hc := hp.1
    simp only
    split
    · rename_i ho
      refine ⟨_, .waitSh s hk ?_⟩
      rcases hc with ⟨_, _, _, h, _⟩ | ⟨_, _, h⟩ | ⟨_, h, _⟩
      · exact absurd ho h
      · rw [ho] at h; cases h
      · exact h
    · rename_i ho
      cases hs : s.spc with
      | poll =>
        by_cases h : s.c.w.shellQ = []
        · exact ⟨_, .sample0 s false hs (by simp [h])⟩
        · exact ⟨_, .sample0 s true hs (by simp [h])⟩
      | sampled r0 =>
        rcases hc with ⟨h, _⟩ | ⟨_, _, h⟩ | ⟨_, _, h⟩
        · exact ⟨_, .sample1 s r0 hs (.inr h)⟩
        · rw [hs] at h; cases h
        · rw [hs] at h; cases h
      | ready r0 r1 =>
        cases r0 with
        | true =>
          have := seen_reach hr hn (.inr ⟨r1, hs⟩)
          cases hq : s.c.w.shellQ with
          | nil => exact absurd hq this
          | cons q r => exact ⟨_, .takeShell s r1 q r hs hq⟩
        | false => exact ⟨_, .skip s r1 hs⟩
      | busy r1 =>
        by_cases hd : s.c.prog .shell = .done (.ok ())
        · exact ⟨_, .doneShell s r1 hs hd⟩
        · obtain ⟨p', w', h⟩ := K.can_step (hh .shell) hd s.c.w
          exact ⟨_, .workShell s r1 p' w' _ hs h (fun _ => List.Sublist.refl _)⟩
      | asked r1 =>
        cases r1 with
        | true => exact ⟨_, .recvCtl s hs⟩
        | false => exact ⟨_, .again s hs⟩
      | echo => exact ⟨_, .sendCtl s hs⟩
      | over => exact absurd hs ho
  | stopPub => exact ⟨_, .stopPub s hk⟩
  | waitPub =>
    rw [hk] at hp
    simp only
    split
    · rename_i ho; exact ⟨_, .waitPub s hk (Main.Commanded_ack hp.2.1 ho)⟩
    · rename_i ho
      obtain ⟨a, ha⟩ := Relay.can_step hri.pubSeen ho
      exact ⟨_, .publisher s a ha⟩
  | stopHb => exact ⟨_, .stopHb s hk⟩
  | waitHb =>
    rw [hk] at hp
    simp only
    split
    · rename_i ho; exact ⟨_, .waitHb s hk (Main.Commanded_ack hp.2.2.1 ho)⟩
    · rename_i ho
      obtain ⟨a, ha⟩ := Relay.can_step hri.hbSeen ho
      exact ⟨_, .heartbeat s a ha⟩
  | notify => exact ⟨_, .notify s hk⟩
  | over => exact absurd hk hg

theorem rank_same {s s' : Split σ} (h1 : s'.kpc = s.kpc) (h2 : s'.c.prog = s.c.prog) (h3 : s'.pub.pc = s.pub.pc)
    (h4 : s'.hb.pc = s.hb.pc) (h5 : s'.spc = s.spc) : rank s' = rank s ∧ help s' = help s := by
  have e1 : s'.pub.rank = s.pub.rank := by unfold Relay.rank; rw [h3]
  have e2 : s'.hb.rank = s.hb.rank := by unfold Relay.rank; rw [h4]
  unfold rank help
  rw [h1, h2, h3, h4, h5, e1, e2]
  exact ⟨rfl, rfl⟩

/-- A step of the shell thread. -/
theorem rank_shell {s s' : Split σ} (h1 : s'.kpc = s.kpc) (h2 : s'.c.prog .control = s.c.prog .control) (h3 : s'.pub.pc = s.pub.pc)
    (h4 : s'.hb = s.hb)
    (h5 : s.kpc = .waitSh → Later (rank s') (rank s)) :
    s'.kpc = .over ∨ Later (rank s') (rank s) ∨ (SWho.shell ≠ help s ∧ rank s' = rank s ∧ help s' = help s) := by
  by_cases hw : s.kpc = .waitSh
  · exact .inr (.inl (h5 hw))
  · refine .inr (.inr ⟨?_, ?_, ?_⟩)
    · unfold help; split
      · rename_i h; exact absurd h hw
      · split <;> simp
      · split <;> simp
      · simp
    · have e1 : s'.pub.rank = s.pub.rank := by unfold Relay.rank; rw [h3]
      unfold rank; rw [h1, h2, h4, e1]; split <;> simp_all
    · unfold help; rw [h1, h3, h4]; split <;> simp_all

theorem rank_dec {st : Start σ} {a : SWho} {s s' : Split σ} (hr : Reach env I st s) (hl : Leaving s)
    (h : Step env I a s s') : s'.kpc = .over ∨ Later (rank s') (rank s) ∨
      (a ≠ help s ∧ rank s' = rank s ∧ help s' = help s) := by
  have hri := rinv_reach hr
  have hp := hri.proto
  obtain ⟨hf, hl2, hl3⟩ := hl
  unfold Proto at hp
  have hcmd : s.kpc = .waitSh → SCommanded s := by intro h; rw [h] at hp; exact hp.1
  cases h with
  | arriveShell _ q => exact .inr (.inr ⟨help_ne_world s, rank_same rfl rfl rfl rfl rfl⟩)
  | arriveControl _ q => exact .inr (.inr ⟨help_ne_world s, rank_same rfl rfl rfl rfl rfl⟩)
  | arriveStdin _ q => exact .inr (.inr ⟨help_ne_world s, rank_same rfl rfl rfl rfl rfl⟩)
  | ping _ i m => exact .inr (.inr ⟨help_ne_world s, rank_same rfl rfl rfl rfl rfl⟩)
  | publisher _ a ha =>
    by_cases hw : s.kpc = .waitPub
    · rw [hw] at hp
      refine .inr (.inl ?_)
      unfold rank
      rw [hw]
      exact .left _ _ (Nat.add_lt_add_left (Relay.rank_step hp.2.1 ha) _)
    · refine .inr (.inr ⟨?_, ?_, ?_⟩)
      · unfold help; split
        · split <;> simp
        · rename_i h; exact absurd h hw
        · split <;> simp
        · simp
      · unfold rank; dsimp only; split <;> simp_all
      · unfold help; dsimp only; split <;> simp_all
  | heartbeat _ a ha =>
    by_cases hw : s.kpc = .waitHb
    · rw [hw] at hp
      refine .inr (.inl ?_)
      unfold rank
      rw [hw]
      exact .left _ _ (Nat.add_lt_add_left (Relay.rank_step hp.2.2.1 ha) _)
    · refine .inr (.inr ⟨?_, ?_, ?_⟩)
      · unfold help; split
        · split <;> simp
        · split <;> simp
        · rename_i h; exact absurd h hw
        · simp
      · unfold rank; dsimp only; split <;> simp_all
      · unfold help; dsimp only; split <;> simp_all
  | start _ hp' => exact absurd hp' hl2
  | test _ hp' hf' => rw [hf] at hf'; cases hf'
  | leave _ hp' _ => refine .inr (.inl ?_); unfold rank; simp only [hp']; exact .left _ _ (by omega)
  | takeControl _ q r hp' _ => refine .inr (.inl ?_); unfold rank; simp only [hp']; exact .left _ _ (by omega)
  | workControl _ p w' keep hp' h' _ =>
    refine .inr (.inl ?_)
    unfold rank
    simp only [Split.work, hp', setProg, if_true]
    exact .right _ ⟨_, _, h'⟩
  | doneControl _ hp' _ => refine .inr (.inl ?_); unfold rank; simp only [hp']; exact .left _ _ (by omega)
  | stopSh _ hp' =>
    refine .inr (.inl ?_); unfold rank; simp only [hp']
    have := srank_le s.spc
    exact .left _ _ (by omega)
  | waitSh _ hp' _ => refine .inr (.inl ?_); unfold rank; simp only [hp']; exact .left _ _ (by omega)
  | stopPub _ hp' =>
    refine .inr (.inl ?_); unfold rank; simp only [hp']
    have := Main.rank_le9 s.pub.command
    exact .left _ _ (by omega)
  | waitPub _ hp' _ => refine .inr (.inl ?_); unfold rank; simp only [hp']; exact .left _ _ (by omega)
  | stopHb _ hp' =>
    refine .inr (.inl ?_); unfold rank; simp only [hp']
    have := Main.rank_le9 s.hb.command
    exact .left _ _ (by omega)
  | waitHb _ hp' _ => refine .inr (.inl ?_); unfold rank; simp only [hp']; exact .left _ _ (by omega)
  | notify _ hp' => exact .inl rfl
  | sample0 _ r hp' _ =>
    refine rank_shell rfl rfl rfl rfl fun hw => ?_
    unfold rank; simp only [hw, hp']
    exact .left _ _ (by simp [srank])
  | sample1 _ r0 hp' _ =>
    refine rank_shell rfl rfl rfl rfl fun hw => ?_
    unfold rank; simp only [hw, hp']
    rcases hcmd hw with ⟨h, _⟩ | ⟨_, _, h⟩ | ⟨_, _, h⟩
    · rw [h]; exact .left _ _ (by cases r0 <;> simp [srank])
    · rw [hp'] at h; cases h
    · rw [hp'] at h; cases h
  | nothing _ hp' hc =>
    refine rank_shell rfl rfl rfl rfl fun hw => ?_
    rcases hcmd hw with ⟨h, _⟩ | ⟨_, _, h⟩ | ⟨_, _, h⟩
    · rw [hc] at h; cases h
    · rw [hp'] at h; cases h
    · rw [hp'] at h; cases h
  | takeShell _ r1 q r hp' _ =>
    refine rank_shell rfl (by simp [setProg]) rfl rfl fun hw => ?_
    unfold rank; simp only [hw, hp']
    exact .left _ _ (by cases r1 <;> simp [srank])
  | skip _ r1 hp' =>
    refine rank_shell rfl rfl rfl rfl fun hw => ?_
    unfold rank; simp only [hw, hp']
    rcases hcmd hw with ⟨_, _, _, _, h⟩ | ⟨_, _, h⟩ | ⟨_, _, h⟩
    · cases r1 with
      | false => exact absurd hp' h
      | true => exact .left _ _ (by simp [srank])
    · rw [hp'] at h; cases h
    · rw [hp'] at h; cases h
  | workShell _ r1 p w' keep hp' h' _ =>
    refine rank_shell rfl (by simp [Split.work, setProg]) rfl rfl fun hw => ?_
    unfold rank
    simp only [Split.work, hw, hp', setProg, if_true]
    exact .right _ ⟨_, _, h'⟩
  | doneShell _ r1 hp' _ =>
    refine rank_shell rfl rfl rfl rfl fun hw => ?_
    unfold rank; simp only [hw, hp']
    exact .left _ _ (by cases r1 <;> simp [srank])
  | again _ hp' =>
    refine rank_shell rfl rfl rfl rfl fun hw => ?_
    unfold rank; simp only [hw, hp']
    exact .left _ _ (by simp [srank])
  | recvCtl _ hp' =>
    refine rank_shell rfl rfl rfl rfl fun hw => ?_
    unfold rank; simp only [hw, hp']
    exact .left _ _ (by simp [srank])
  | sendCtl _ hp' =>
    refine rank_shell rfl rfl rfl rfl fun hw => ?_
    unfold rank; simp only [hw, hp']
    exact .left _ _ (by simp [srank])

theorem reach_exec {st : Start σ} (e : Execution (Step env I)) (h0 : e.state 0 = init st) (m : Nat) : Reach env I st (e.state m) := by
  induction m with
  | zero => rw [h0]; exact .init
  | succ m ih =>
    have := e.ok m
    cases hw : e.who m with
    | none => rw [hw] at this; simp only at this; rw [this]; exact ih
    | some a => rw [hw] at this; exact ih.step this

theorem leaving_exec (e : Execution (Step env I)) {n : Nat} (h : Leaving (e.state n)) (m : Nat) (hm : n ≤ m) :
    Leaving (e.state m) := by
  induction hm with
  | refl => exact h
  | @step m _ ih =>
    have := e.ok m
    cases hw : e.who m with
    | none => rw [hw] at this; simp only at this; rw [this]; exact ih
    | some a => rw [hw] at this; exact leaving_step ih this

theorem terminates {st : Start σ} (e : Execution (Step env I)) (h0 : e.state 0 = init st)
    (hf : ∀ a, a ≠ SWho.world → Fair e a) (n : Nat) (hl : Leaving (e.state n))
    (hh : ∀ m, n ≤ m → Healthy (e.state m)) (hn : ∀ m, n ≤ m → NoDrain (e.state m)) :
    ∃ m, n ≤ m ∧ (e.state m).kpc = .over := by
  refine progress later_wf e (fun s => Reach env I st s ∧ Leaving s ∧ Healthy s ∧ NoDrain s) (fun s => s.kpc = .over) rank help n
    (fun m hm => ⟨reach_exec e h0 m, leaving_exec e hl m hm, hh m hm, hn m hm⟩) ?_ ?_ ?_
  · intro s _ _; exact hf _ fun h => help_ne_world s h.symm
  · rintro s ⟨h1, h2, h3, h4⟩ hg; exact can_help h1 h2 h4 h3 hg
  · rintro a s s' ⟨h1, h2, _⟩ _ _ hs; exact rank_dec h1 h2 hs

end Split

end Xeus
