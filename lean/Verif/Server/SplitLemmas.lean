import Verif.Server.Split
import Verif.Server.Channels

/-!
# The split servers: invariants (no property statements here)
-/

namespace Xeus

open Spec K

variable {σ : Type} {env : Env} {I : Interp σ}

theorem tooks_append (c : Chan) (a b : List SEv) : tooks c (a ++ b) = tooks c a + tooks c b := by
  induction a with
  | nil => simp [tooks]
  | cons x a ih =>
    cases x with
    | act y =>
      cases y with
      | took t q => simp only [List.cons_append, tooks, ih]; split <;> omega
      | drained t q => simp only [List.cons_append, tooks, ih]
      | did t e => simp only [List.cons_append, tooks, ih]
    | arrived c' q => simp only [List.cons_append, tooks, ih]
    | poll => simp only [List.cons_append, tooks, ih]
    | began => simp only [List.cons_append, tooks, ih]
    | sentStop => simp only [List.cons_append, tooks, ih]

theorem tooks_zero (c : Chan) (l : List SEv) (h : ∀ q, SEv.act (.took c q) ∉ l) : tooks c l = 0 := by
  induction l with
  | nil => rfl
  | cons x l ih =>
    have ih := ih fun q hq => h q (List.mem_cons_of_mem _ hq)
    cases x with
    | act y =>
      cases y with
      | took t q =>
        simp only [tooks]
        split
        · rename_i ht; subst ht; exact absurd (List.mem_cons_self ..) (h q)
        · exact ih
      | drained t q => exact ih
      | did t e => exact ih
    | arrived c' q => exact ih
    | poll => exact ih
    | began => exact ih
    | sentStop => exact ih

theorem tooks_entries (c t : Chan) (w w' : World σ) : tooks c ((entries t w w').map .act) = 0 := by
  apply tooks_zero
  intro q hq
  obtain ⟨x, hx, h⟩ := List.mem_map.1 hq
  cases h
  exact entries_noTook _ _ _ _ _ hx

theorem pubsOn_append (k : Chan) (a b : List Ev) : pubsOn k (a ++ b) = pubsOn k a ++ pubsOn k b := by
  induction a with
  | nil => rfl
  | cons x a ih =>
    cases x with
    | pub c m w => simp only [List.cons_append, pubsOn, ih]; split <;> rfl
    | _ => simp only [List.cons_append, pubsOn, ih]

namespace Split

/-- The kernel of the server is a run of the kernel. -/
structure KInv (env : Env) (I : Interp σ) (st : Start σ) (s : Split σ) : Prop where
  conc : CReach env I st s.c
  idleC : s.kpc ≠ .busy → s.c.prog .control = .done (.ok ())
  idleS : (∀ r, s.spc ≠ .busy r) → s.c.prog .shell = .done (.ok ())

theorem kinv_reach {st : Start σ} {s : Split σ} (h : Reach env I st s) : KInv env I st s := by
  induction h with
  | init => exact ⟨.start, fun _ => rfl, fun _ => rfl⟩
  | step _ hs ih =>
    obtain ⟨h1, h2, h3⟩ := ih
    cases hs with
    | arriveShell _ q => exact ⟨h1.step (.arriveShell _ q), h2, h3⟩
    | arriveControl _ q => exact ⟨h1.step (.arriveControl _ q), h2, h3⟩
    | arriveStdin _ q => exact ⟨h1.step (.arriveStdin _ q), h2, h3⟩
    | ping _ i m => exact ⟨h1, h2, h3⟩
    | publisher _ a _ => exact ⟨h1, h2, h3⟩
    | heartbeat _ a _ => exact ⟨h1, h2, h3⟩
    | start _ hp => exact ⟨h1, fun _ => h2 (by simp [hp]), h3⟩
    | test _ hp _ => exact ⟨h1, fun _ => h2 (by simp [hp]), h3⟩
    | leave _ hp _ => exact ⟨h1, fun _ => h2 (by simp [hp]), h3⟩
    | takeControl _ q r hp hq => exact ⟨h1.step (.takeControl _ q r (h2 (by simp [hp])) hq), fun h => absurd rfl h, h3⟩
    | workControl _ p w' keep hp hs _ => exact ⟨h1.step (.act _ .control p w' hs), fun h => absurd hp h, h3⟩
    | doneControl _ hp hd => exact ⟨h1, fun _ => hd, h3⟩
    | stopSh _ hp => exact ⟨h1, fun _ => h2 (by simp [hp]), h3⟩
    | waitSh _ hp _ => exact ⟨h1, fun _ => h2 (by simp [hp]), h3⟩
    | stopPub _ hp => exact ⟨h1, fun _ => h2 (by simp [hp]), h3⟩
    | waitPub _ hp _ => exact ⟨h1, fun _ => h2 (by simp [hp]), h3⟩
    | stopHb _ hp => exact ⟨h1, fun _ => h2 (by simp [hp]), h3⟩
    | waitHb _ hp _ => exact ⟨h1, fun _ => h2 (by simp [hp]), h3⟩
    | notify _ hp => exact ⟨h1, fun _ => h2 (by simp [hp]), h3⟩
    | sample0 _ r hp _ => exact ⟨h1, h2, fun _ => h3 (by simp [hp])⟩
    | sample1 _ r0 hp _ => exact ⟨h1, h2, fun _ => h3 (by simp [hp])⟩
    | nothing _ hp _ => exact ⟨h1, h2, fun _ => h3 (by simp [hp])⟩
    | takeShell _ r1 q r hp hq => exact ⟨h1.step (.takeShell _ q r (h3 (by simp [hp])) hq), h2, fun h => absurd rfl (h r1)⟩
    | skip _ r1 hp => exact ⟨h1, h2, fun _ => h3 (by simp [hp])⟩
    | workShell _ r1 p w' keep hp hs _ => exact ⟨h1.step (.act _ .shell p w' hs), h2, fun h => absurd hp (h r1)⟩
    | doneShell _ r1 hp hd => exact ⟨h1, h2, fun _ => hd⟩
    | again _ hp => exact ⟨h1, h2, fun _ => h3 (by simp [hp])⟩
    | recvCtl _ hp => exact ⟨h1, h2, fun _ => h3 (by simp [hp])⟩
    | sendCtl _ hp => exact ⟨h1, h2, fun _ => h3 (by simp [hp])⟩

/-! ## Queues -/

structure QInv (s : Split σ) : Prop where
  control : takenFrom .control s.log ++ s.c.controlQ = arrivedOn .control s.log
  shell : takenFrom .shell s.log ++ s.c.w.shellQ = arrivedOn .shell s.log

theorem QInv.same {s s' : Split σ} (h : QInv s) (h1 : s'.log = s.log) (h2 : s'.c.controlQ = s.c.controlQ)
    (h3 : s'.c.w.shellQ = s.c.w.shellQ) : QInv s' := ⟨by rw [h1, h2]; exact h.control, by rw [h1, h3]; exact h.shell⟩

theorem QInv.work {s : Split σ} (h : QInv s) {t : Chan} {p : K (World σ) Unit} {w' : World σ} {keep : Chan → List Multipart}
    (hk : w'.shellQ <:+ s.c.w.shellQ) : QInv (s.work t p w' keep) := by
  have ht := fun c => takenFrom_entries (w := s.c.w) (w' := w') c t hk
  refine ⟨?_, ?_⟩
  · simp only [Split.work, takenFrom_append, arrivedOn_append, arrivedOn_acts, List.append_nil]
    have := ht .control
    simp at this
    rw [this, List.append_nil]
    exact h.control
  · simp only [Split.work, takenFrom_append, arrivedOn_append, arrivedOn_acts, List.append_nil]
    have := ht .shell
    simp at this
    rw [List.append_assoc, this]
    exact h.shell

theorem qinv_reach {st : Start σ} {s : Split σ} (h : Reach env I st s) : QInv s := by
  induction h with
  | init => exact ⟨rfl, st.shellQ⟩
  | step hr hs ih =>
    obtain ⟨h1, h2⟩ := ih
    cases hs with
    | arriveShell _ q =>
      exact ⟨by simpa [takenFrom_append, arrivedOn_append, takenFrom, arrivedOn] using h1,
        by simp [takenFrom_append, arrivedOn_append, takenFrom, arrivedOn, ← h2]⟩
    | arriveControl _ q =>
      exact ⟨by simp [takenFrom_append, arrivedOn_append, takenFrom, arrivedOn, ← h1],
        by simpa [takenFrom_append, arrivedOn_append, takenFrom, arrivedOn] using h2⟩
    | takeControl _ q r hp hq =>
      exact ⟨by rw [hq] at h1; simpa [takenFrom_append, arrivedOn_append, takenFrom, arrivedOn] using h1,
        by simpa [takenFrom_append, arrivedOn_append, takenFrom, arrivedOn] using h2⟩
    | takeShell _ r1 q r hp hq =>
      exact ⟨by simpa [takenFrom_append, arrivedOn_append, takenFrom, arrivedOn] using h1,
        by rw [hq] at h2; simpa [takenFrom_append, arrivedOn_append, takenFrom, arrivedOn] using h2⟩
    | workControl _ p w' keep hp hs _ => exact QInv.work ⟨h1, h2⟩ (creach_kept (kinv_reach hr).conc hs).2
    | workShell _ r1 p w' keep hp hs _ => exact QInv.work ⟨h1, h2⟩ (creach_kept (kinv_reach hr).conc hs).2
    | start _ hp =>
      exact ⟨by simpa [takenFrom_append, arrivedOn_append, takenFrom, arrivedOn] using h1,
        by simpa [takenFrom_append, arrivedOn_append, takenFrom, arrivedOn] using h2⟩
    | stopSh _ hp =>
      exact ⟨by simpa [takenFrom_append, arrivedOn_append, takenFrom, arrivedOn] using h1,
        by simpa [takenFrom_append, arrivedOn_append, takenFrom, arrivedOn] using h2⟩
    | _ => exact ⟨h1, h2⟩

/-! ## The control thread and stop requests -/

/-- What is known after a stop request of thread `t`, `b` having happened since. -/
def After (s : Split σ) (t : Chan) (b : List SEv) : Prop :=
  s.flag = true ∧ ((tooks .control b = 0 ∧ (t = .control → s.kpc ≠ .recv)) ∨
    (tooks .control b = 1 ∧ t = .shell ∧ s.kpc ≠ .recv))

structure StopInv (s : Split σ) : Prop where
  entry : s.kpc = .entry ↔ SEv.began ∉ s.log
  did : ∀ a e b, s.log = a ++ .act (.did .control e) :: b → SEv.began ∈ a
  stop : ∀ a t b, s.log = a ++ .act (.did t .stop) :: b → SEv.began ∈ a → After s t b

theorem After.mono {s s' : Split σ} {t : Chan} {b : List SEv} (h : After s t b) (h1 : s'.flag = s.flag)
    (h2 : s'.kpc = .recv → s.kpc = .recv) : After s' t b := by
  obtain ⟨h3, h4⟩ := h
  refine ⟨h1.trans h3, ?_⟩
  rcases h4 with ⟨h4, h5⟩ | ⟨h4, h5, h6⟩
  · exact .inl ⟨h4, fun h h' => h5 h (h2 h')⟩
  · exact .inr ⟨h4, h5, fun h' => h6 (h2 h')⟩

theorem StopInv.same {s s' : Split σ} (h : StopInv s) (h1 : s'.log = s.log) (h2 : s'.flag = s.flag)
    (h3 : s'.kpc = .recv → s.kpc = .recv) (h4 : s'.kpc = .entry ↔ s.kpc = .entry) : StopInv s' := by
  refine ⟨by rw [h4, h1]; exact h.entry, by rw [h1]; exact h.did, ?_⟩
  rw [h1]
  intro a t b hl hb
  exact (h.stop a t b hl hb).mono h2 h3

/-- An entry that is no act is added. -/
theorem StopInv.note {s s' : Split σ} {x : SEv} (h : StopInv s) (hx : ∀ a, x ≠ .act a) (h1 : s'.log = s.log ++ [x])
    (h4 : s'.kpc = .entry ↔ SEv.began ∉ s'.log)
    (h2 : SEv.began ∈ s.log → s'.flag = s.flag ∧ (s'.kpc = .recv → s.kpc = .recv)) : StopInv s' := by
  refine ⟨h4, ?_, ?_⟩
  · intro a e b hl
    rw [h1] at hl
    rcases snoc_split hl with ⟨_, hy, _⟩ | ⟨b', rfl, h'⟩
    · exact absurd hy.symm (hx _)
    · exact h.did _ _ _ h'
  · intro a t b hl hb
    rw [h1] at hl
    rcases snoc_split hl with ⟨_, hy, _⟩ | ⟨b', rfl, h'⟩
    · exact absurd hy.symm (hx _)
    · have hb' : SEv.began ∈ s.log := by rw [h']; exact List.mem_append_left _ hb
      have := (h.stop a t b' h' hb).mono (h2 hb').1 (h2 hb').2
      unfold After at this ⊢
      have hz : tooks .control [x] = 0 := tooks_zero _ _ (by intro q hq; exact hx _ (List.mem_singleton.1 hq).symm)
      rw [tooks_append, hz]
      exact this

/-- A message is received. -/
theorem StopInv.take {s s' : Split σ} {t₀ : Chan} {q₀ : Multipart} (h : StopInv s)
    (h1 : s'.log = s.log ++ [.act (.took t₀ q₀)]) (h2 : s'.flag = s.flag) (h4 : s'.kpc = .entry ↔ s.kpc = .entry)
    (h3 : t₀ = .shell ∧ (s'.kpc = .recv → s.kpc = .recv) ∨ t₀ = .control ∧ s.kpc = .recv ∧ s'.kpc ≠ .recv) : StopInv s' := by
  refine ⟨?_, ?_, ?_⟩
  · rw [h4, h.entry, h1]; simp
  · intro a e b hl
    rw [h1] at hl
    rcases snoc_split hl with ⟨_, hy, _⟩ | ⟨b', rfl, h'⟩
    · cases hy
    · exact h.did _ _ _ h'
  · intro a t b hl hb
    rw [h1] at hl
    rcases snoc_split hl with ⟨_, hy, _⟩ | ⟨b', rfl, h'⟩
    · cases hy
    · obtain ⟨h5, h6⟩ := h.stop a t b' h' hb
      refine ⟨h2.trans h5, ?_⟩
      rw [tooks_append]
      rcases h3 with ⟨rfl, h3⟩ | ⟨rfl, h3, h3'⟩
      · rcases h6 with ⟨h6, h7⟩ | ⟨h6, h7, h8⟩
        · exact .inl ⟨by simpa [tooks] using h6, fun h h' => h7 h (h3 h')⟩
        · exact .inr ⟨by simpa [tooks] using h6, h7, fun h' => h8 (h3 h')⟩
      · rcases h6 with ⟨h6, h7⟩ | ⟨h6, h7, h8⟩
        · have ht : t = .shell := by
            cases t with
            | shell => rfl
            | control => exact absurd h3 (h7 rfl)
          exact .inr ⟨by simp [tooks, h6], ht, h3'⟩
        · exact absurd h3 h8

theorem StopInv.work {s : Split σ} (h : StopInv s) {t : Chan} {p : K (World σ) Unit} {w' : World σ} {keep : Chan → List Multipart}
    (ht : t = .control → s.kpc = .busy) : StopInv (s.work t p w' keep) := by
  refine ⟨?_, ?_, ?_⟩
  · show s.kpc = .entry ↔ SEv.began ∉ s.log ++ _
    rw [h.entry]; simp
  · intro a e b hl
    rcases mem_append_split hl with ⟨post', h'⟩ | ⟨e₁, h1, h2⟩
    · exact h.did _ _ _ h'
    · have hm : SEv.act (.did .control e) ∈ (entries t s.c.w w').map .act := by rw [h1]; simp
      obtain ⟨x, hx, hxe⟩ := List.mem_map.1 hm
      cases hxe
      have := ht (act_mem_entries hx).1.symm
      rw [h2]
      apply List.mem_append_left
      apply Classical.byContradiction
      intro hn
      rw [h.entry.2 hn] at this
      cases this
  · intro a t' b hl hb
    rcases mem_append_split hl with ⟨post', h'⟩ | ⟨e₁, h1, h2⟩
    · have hl' : s.log ++ (entries t s.c.w w').map .act = a ++ .act (.did t' .stop) :: b := hl
      rw [h', List.append_assoc, List.cons_append] at hl'
      have hbb := (List.cons.inj (List.append_cancel_left hl')).2
      obtain ⟨h5, h6⟩ := h.stop a t' post' h' hb
      refine ⟨?_, ?_⟩
      · show (s.flag || _) = true
        rw [h5]; rfl
      · rw [← hbb, tooks_append, tooks_entries]
        exact h6
    · have hm : SEv.act (.did t' .stop) ∈ (entries t s.c.w w').map .act := by rw [h1]; simp
      obtain ⟨x, hx, hxe⟩ := List.mem_map.1 hm
      cases hxe
      obtain ⟨rfl, h3⟩ := act_mem_entries hx
      refine ⟨?_, .inl ⟨?_, ?_⟩⟩
      · show (s.flag || decide (Ev.stop ∈ w'.out.drop s.c.w.out.length)) = true
        simp [h3]
      · apply tooks_zero
        intro q hq
        have hm : SEv.act (.took .control q) ∈ (entries t' s.c.w w').map .act := by rw [h1]; simp [hq]
        obtain ⟨x, hx, hxe⟩ := List.mem_map.1 hm
        cases hxe
        exact entries_noTook _ _ _ _ _ hx
      · intro hc
        show s.kpc ≠ .recv
        rw [ht hc]
        simp

theorem stopinv_reach {st : Start σ} {s : Split σ} (h : Reach env I st s) : StopInv s := by
  induction h with
  | init => exact ⟨by simp [init], fun a e b h => by simp [init] at h, fun a t b h => by simp [init] at h⟩
  | step hr hs ih =>
    cases hs with
    | arriveShell _ q => exact ih.note (x := .arrived .shell q) (by simp) rfl (by simpa using ih.entry) fun _ => ⟨rfl, id⟩
    | arriveControl _ q => exact ih.note (x := .arrived .control q) (by simp) rfl (by simpa using ih.entry) fun _ => ⟨rfl, id⟩
    | start _ hp =>
      refine ih.note (x := .began) (by simp) rfl (by simp) fun hb => ?_
      exact absurd hb (ih.entry.1 hp)
    | test _ hp hf =>
      refine ⟨?_, ih.did, ?_⟩
      · have := ih.entry; rw [hp] at this; simpa using this
      · intro a t b hl hb
        have := (ih.stop a t b hl hb).1
        rw [hf] at this
        cases this
    | leave _ hp hf => exact ih.same rfl rfl (by simp) (by simp [hp])
    | takeControl _ q r hp hq => exact ih.take rfl rfl (by simp [hp]) (.inr ⟨rfl, hp, by simp⟩)
    | workControl _ p w' keep hp hs _ => exact ih.work fun _ => hp
    | doneControl _ hp hd => exact ih.same rfl rfl (by simp) (by simp [hp])
    | stopSh _ hp =>
      have := ih.entry
      rw [hp] at this
      exact ih.note (x := .sentStop) (by simp) rfl (by simpa using this) fun _ => ⟨rfl, by simp⟩
    | waitSh _ hp _ => exact ih.same rfl rfl (by simp) (by simp [hp])
    | stopPub _ hp => exact ih.same rfl rfl (by simp) (by simp [hp])
    | waitPub _ hp _ => exact ih.same rfl rfl (by simp) (by simp [hp])
    | stopHb _ hp => exact ih.same rfl rfl (by simp) (by simp [hp])
    | waitHb _ hp _ => exact ih.same rfl rfl (by simp) (by simp [hp])
    | notify _ hp => exact ih.same rfl rfl (by simp) (by simp [hp])
    | takeShell _ r1 q r hp hq => exact ih.take rfl rfl Iff.rfl (.inl ⟨rfl, id⟩)
    | workShell _ r1 p w' keep hp hs _ => exact ih.work (by simp)
    | _ => exact ih.same rfl rfl id Iff.rfl

/-! ## The stop protocol -/

/-- The value of the second flag. -/
def sflag : ShellPc → Bool
  | .ready _ r1 => r1
  | .busy r1 => r1
  | .asked r1 => r1
  | _ => false

/-- Before the command. -/
def SIdle (s : Split σ) : Prop := s.ctl = false ∧ s.ack = false ∧ sflag s.spc = false ∧ s.spc ≠ .echo ∧ s.spc ≠ .over ∧
  ∀ r, s.spc ≠ .ready false r

/-- Between command and answer. -/
def SCommanded (s : Split σ) : Prop :=
  (s.ctl = true ∧ s.ack = false ∧ s.spc ≠ .echo ∧ s.spc ≠ .over ∧ s.spc ≠ .ready false false) ∨
  (s.ctl = false ∧ s.ack = false ∧ s.spc = .echo) ∨ (s.ctl = false ∧ s.ack = true ∧ s.spc = .over)

/-- After the answer. -/
def SEnded (s : Split σ) : Prop := s.ctl = false ∧ s.ack = false ∧ s.spc = .over

/-- The state of the stop protocol. -/
def Proto (s : Split σ) : Prop :=
  match s.kpc with
  | .waitSh => SCommanded s ∧ s.pub.Idle ∧ s.hb.Idle ∧ s.stopped = false ∧ SEv.sentStop ∈ s.log
  | .stopPub => SEnded s ∧ s.pub.Idle ∧ s.hb.Idle ∧ s.stopped = false ∧ SEv.sentStop ∈ s.log
  | .waitPub => SEnded s ∧ s.pub.Commanded ∧ s.hb.Idle ∧ s.stopped = false ∧ SEv.sentStop ∈ s.log
  | .stopHb => SEnded s ∧ s.pub.Ended ∧ s.hb.Idle ∧ s.stopped = false ∧ SEv.sentStop ∈ s.log
  | .waitHb => SEnded s ∧ s.pub.Ended ∧ s.hb.Commanded ∧ s.stopped = false ∧ SEv.sentStop ∈ s.log
  | .notify => SEnded s ∧ s.pub.Ended ∧ s.hb.Ended ∧ s.stopped = false ∧ SEv.sentStop ∈ s.log
  | .over => SEnded s ∧ s.pub.Ended ∧ s.hb.Ended ∧ s.stopped = true ∧ SEv.sentStop ∈ s.log
  | _ => SIdle s ∧ s.pub.Idle ∧ s.hb.Idle ∧ s.stopped = false ∧ SEv.sentStop ∉ s.log

/-- The three ways the thread of the shell channel can be concerned. -/
theorem Proto.shell {s s' : Split σ} (h : Proto s) (h1 : SIdle s → SIdle s') (h2 : SCommanded s → SCommanded s')
    (h3 : SEnded s → SEnded s') (hk : s'.kpc = s.kpc) (hp : s'.pub = s.pub) (hh : s'.hb = s.hb) (hs : s'.stopped = s.stopped)
    (hl : SEv.sentStop ∈ s'.log ↔ SEv.sentStop ∈ s.log) : Proto s' := by
  unfold Proto at h ⊢
  rw [hk, hp, hh, hs]
  split at h <;> simp_all

theorem Proto.same {s s' : Split σ} (h : Proto s) (hc : s'.ctl = s.ctl) (ha : s'.ack = s.ack) (hsp : s'.spc = s.spc)
    (hk : s'.kpc = s.kpc) (hp : s'.pub = s.pub) (hh : s'.hb = s.hb) (hs : s'.stopped = s.stopped)
    (hl : SEv.sentStop ∈ s'.log ↔ SEv.sentStop ∈ s.log) : Proto s' := by
  refine h.shell ?_ ?_ ?_ hk hp hh hs hl
  · unfold SIdle; rw [hc, ha, hsp]; exact id
  · unfold SCommanded; rw [hc, ha, hsp]; exact id
  · unfold SEnded; rw [hc, ha, hsp]; exact id

/-- The control thread moves where nothing has been stopped. -/
theorem Proto.control {s s' : Split σ} (h : Proto s) (hc : s'.ctl = s.ctl) (ha : s'.ack = s.ack) (hsp : s'.spc = s.spc)
    (hp : s'.pub = s.pub) (hh : s'.hb = s.hb) (hs : s'.stopped = s.stopped)
    (hl : SEv.sentStop ∈ s'.log ↔ SEv.sentStop ∈ s.log)
    (hk : s.kpc = .entry ∨ s.kpc = .loop ∨ s.kpc = .recv ∨ s.kpc = .busy ∨ s.kpc = .stopSh)
    (hk' : s'.kpc = .loop ∨ s'.kpc = .recv ∨ s'.kpc = .busy ∨ s'.kpc = .stopSh) : Proto s' := by
  unfold Proto SIdle at h ⊢
  rw [hc, ha, hsp, hp, hh, hs, hl]
  rcases hk with hk | hk | hk | hk | hk <;> rw [hk] at h <;> rcases hk' with hk' | hk' | hk' | hk' <;> rw [hk'] <;> exact h

theorem sentStop_entries (t : Chan) (w w' : World σ) (l : List SEv) :
    SEv.sentStop ∈ l ++ (entries t w w').map .act ↔ SEv.sentStop ∈ l := by simp

structure RInv (s : Split σ) : Prop where
  pubCounted : s.pub.Counted
  pubSeen : s.pub.Seen
  hbCounted : s.hb.Counted
  hbSeen : s.hb.Seen
  proto : Proto s
  sub : ∀ k, (s.pub.given k).Sublist (pubsOn k s.c.w.out)
  len : ∀ k, (s.pub.given k).length + s.dropped k = (pubsOn k s.c.w.out).length

theorem RInv.same {s s' : Split σ} (h : RInv s) (h1 : s'.pub = s.pub) (h2 : s'.hb = s.hb)
    (h3 : s'.c.w.out = s.c.w.out) (h4 : s'.dropped = s.dropped) (hp : Proto s') : RInv s' :=
  ⟨by rw [h1]; exact h.pubCounted, by rw [h1]; exact h.pubSeen, by rw [h2]; exact h.hbCounted, by rw [h2]; exact h.hbSeen,
    hp, by rw [h1, h3]; exact h.sub, by rw [h1, h3, h4]; exact h.len⟩

theorem put_given (a : Relay Chan) (x y : List Multipart) (k : Chan) :
    ((a.put .shell x).put .control y).given k = a.given k ++ (match k with | .shell => x | .control => y) := by
  cases k <;> simp [Relay.put, Relay.upd]

theorem RInv.work {s : Split σ} (h : RInv s) {t : Chan} {p : K (World σ) Unit} {w' : World σ} {keep : Chan → List Multipart}
    (hk : s.c.w.out <+: w'.out) (hs : ∀ k, (keep k).Sublist (pubsOn k (w'.out.drop s.c.w.out.length))) :
    RInv (s.work t p w' keep) := by
  have ho : ∀ k, pubsOn k w'.out = pubsOn k s.c.w.out ++ pubsOn k (w'.out.drop s.c.w.out.length) := by
    intro k
    rw [← pubsOn_append, ← prefix_drop hk]
  have hg : ∀ k, ((s.pub.put .shell (keep .shell)).put .control (keep .control)).given k = s.pub.given k ++ keep k := by
    intro k
    rw [put_given]
    cases k <;> rfl
  refine ⟨(h.pubCounted.put _ _).put _ _, (h.pubSeen.put _ _).put _ _, h.hbCounted, h.hbSeen, ?_, ?_, ?_⟩
  · have := h.proto
    unfold Proto SIdle SCommanded SEnded at this ⊢
    simp only [Split.work, sentStop_entries]
    split at this <;> exact this
  · intro k
    show (((s.pub.put .shell (keep .shell)).put .control (keep .control)).given k).Sublist (pubsOn k w'.out)
    rw [hg, ho]
    exact (h.sub k).append (hs k)
  · intro k
    show (((s.pub.put .shell (keep .shell)).put .control (keep .control)).given k).length +
      (s.dropped k + ((pubsOn k (w'.out.drop s.c.w.out.length)).length - (keep k).length)) = (pubsOn k w'.out).length
    rw [hg, ho, List.length_append, List.length_append]
    have h1 := h.len k
    have h2 := (hs k).length_le
    omega

theorem rinv_reach {st : Start σ} {s : Split σ} (h : Reach env I st s) : RInv s := by
  induction h with
  | init => exact ⟨Relay.counted_init, Relay.seen_init, Relay.counted_init, Relay.seen_init,
      ⟨⟨rfl, rfl, rfl, by simp [init], by simp [init], by simp [init]⟩, Relay.idle_init, Relay.idle_init, rfl, by simp [init]⟩,
      fun _ => by rw [show (init st).c.w.out = [] from st.out]; exact .slnil,
      fun _ => by rw [show (init st).c.w.out = [] from st.out]; rfl⟩
  | step hr hs ih =>
    have hpr := ih.proto
    cases hs with
    | arriveShell _ q => exact ih.same rfl rfl rfl rfl (hpr.same rfl rfl rfl rfl rfl rfl rfl (by simp))
    | arriveControl _ q => exact ih.same rfl rfl rfl rfl (hpr.same rfl rfl rfl rfl rfl rfl rfl (by simp))
    | arriveStdin _ q => exact ih.same rfl rfl rfl rfl (hpr.same rfl rfl rfl rfl rfl rfl rfl (by simp))
    | ping _ i m =>
      refine ⟨ih.pubCounted, ih.pubSeen, ih.hbCounted.put _ _, ih.hbSeen.put _ _, ?_, ih.sub, ih.len⟩
      unfold Proto SIdle SCommanded SEnded at hpr ⊢
      simp only
      split at hpr <;> exact hpr
    | publisher _ a ha =>
      have hg := Relay.step_given ha
      refine ⟨ih.pubCounted.step ha, ih.pubSeen.step ha, ih.hbCounted, ih.hbSeen, ?_, by rw [hg]; exact ih.sub, by rw [hg]; exact ih.len⟩
      unfold Proto SIdle SCommanded SEnded at hpr ⊢
      simp only
      split at hpr <;> obtain ⟨h1, h2, h3, h4⟩ := hpr
      · exact ⟨h1, h2.step ha, h3, h4⟩
      · exact ⟨h1, h2.step ha, h3, h4⟩
      · exact ⟨h1, h2.step ha, h3, h4⟩
      · exact (Relay.over_stuck h2.2.2 ha).elim
      · exact (Relay.over_stuck h2.2.2 ha).elim
      · exact (Relay.over_stuck h2.2.2 ha).elim
      · exact (Relay.over_stuck h2.2.2 ha).elim
      · exact ⟨h1, h2.step ha, h3, h4⟩
    | heartbeat _ a ha =>
      refine ⟨ih.pubCounted, ih.pubSeen, ih.hbCounted.step ha, ih.hbSeen.step ha, ?_, ih.sub, ih.len⟩
      unfold Proto SIdle SCommanded SEnded at hpr ⊢
      simp only
      split at hpr <;> obtain ⟨h1, h2, h3, h4⟩ := hpr
      · exact ⟨h1, h2, h3.step ha, h4⟩
      · exact ⟨h1, h2, h3.step ha, h4⟩
      · exact ⟨h1, h2, h3.step ha, h4⟩
      · exact ⟨h1, h2, h3.step ha, h4⟩
      · exact ⟨h1, h2, h3.step ha, h4⟩
      · exact (Relay.over_stuck h3.2.2 ha).elim
      · exact (Relay.over_stuck h3.2.2 ha).elim
      · exact ⟨h1, h2, h3.step ha, h4⟩
    | start _ hp => exact ih.same rfl rfl rfl rfl (hpr.control rfl rfl rfl rfl rfl rfl (by simp) (by simp [hp]) (by simp))
    | test _ hp hf => exact ih.same rfl rfl rfl rfl (hpr.control rfl rfl rfl rfl rfl rfl Iff.rfl (by simp [hp]) (by simp))
    | leave _ hp hf => exact ih.same rfl rfl rfl rfl (hpr.control rfl rfl rfl rfl rfl rfl Iff.rfl (by simp [hp]) (by simp))
    | takeControl _ q r hp hq => exact ih.same rfl rfl rfl rfl (hpr.control rfl rfl rfl rfl rfl rfl (by simp) (by simp [hp]) (by simp))
    | workControl _ p w' keep hp hs hk => exact ih.work (creach_kept (kinv_reach hr).conc hs).1 hk
    | doneControl _ hp hd => exact ih.same rfl rfl rfl rfl (hpr.control rfl rfl rfl rfl rfl rfl Iff.rfl (by simp [hp]) (by simp))
    | stopSh _ hp =>
      refine ih.same rfl rfl rfl rfl ?_
      unfold Proto at hpr ⊢
      rw [hp] at hpr
      obtain ⟨⟨h1, h2, h3, h4, h5, h6⟩, h7, h8, h9, h10⟩ := hpr
      exact ⟨.inl ⟨rfl, h2, h4, h5, h6 _⟩, h7, h8, h9, by simp⟩
    | waitSh _ hp ha =>
      refine ih.same rfl rfl rfl rfl ?_
      unfold Proto at hpr ⊢
      rw [hp] at hpr
      obtain ⟨h1, h2⟩ := hpr
      refine ⟨?_, h2⟩
      rcases h1 with ⟨_, h, _⟩ | ⟨_, h, _⟩ | ⟨h1, h3, h4⟩
      · rw [ha] at h; cases h
      · rw [ha] at h; cases h
      · exact ⟨h1, rfl, h4⟩
    | stopPub _ hp =>
      refine ⟨ih.pubCounted, ih.pubSeen, ih.hbCounted, ih.hbSeen, ?_, ih.sub, ih.len⟩
      unfold Proto at hpr ⊢
      rw [hp] at hpr
      exact ⟨hpr.1, hpr.2.1.command, hpr.2.2⟩
    | waitPub _ hp ha =>
      refine ⟨ih.pubCounted, ih.pubSeen, ih.hbCounted, ih.hbSeen, ?_, ih.sub, ih.len⟩
      unfold Proto at hpr ⊢
      rw [hp] at hpr
      exact ⟨hpr.1, hpr.2.1.answered ha, hpr.2.2⟩
    | stopHb _ hp =>
      refine ⟨ih.pubCounted, ih.pubSeen, ih.hbCounted, ih.hbSeen, ?_, ih.sub, ih.len⟩
      unfold Proto at hpr ⊢
      rw [hp] at hpr
      exact ⟨hpr.1, hpr.2.1, hpr.2.2.1.command, hpr.2.2.2⟩
    | waitHb _ hp ha =>
      refine ⟨ih.pubCounted, ih.pubSeen, ih.hbCounted, ih.hbSeen, ?_, ih.sub, ih.len⟩
      unfold Proto at hpr ⊢
      rw [hp] at hpr
      exact ⟨hpr.1, hpr.2.1, hpr.2.2.1.answered ha, hpr.2.2.2⟩
    | notify _ hp =>
      refine ⟨ih.pubCounted, ih.pubSeen, ih.hbCounted, ih.hbSeen, ?_, ih.sub, ih.len⟩
      unfold Proto at hpr ⊢
      rw [hp] at hpr
      exact ⟨hpr.1, hpr.2.1, hpr.2.2.1, rfl, hpr.2.2.2.2⟩
    | sample0 _ r hp _ =>
      refine ih.same rfl rfl rfl rfl (hpr.shell ?_ ?_ ?_ rfl rfl rfl rfl Iff.rfl)
      · rintro ⟨h1, h2, h3, h4, h5, h6⟩; exact ⟨h1, h2, rfl, by simp, by simp, by simp⟩
      · rintro (⟨h1, h2, h3, h4, h5⟩ | ⟨_, _, h⟩ | ⟨_, _, h⟩)
        · exact .inl ⟨h1, h2, by simp, by simp, by simp⟩
        · rw [hp] at h; cases h
        · rw [hp] at h; cases h
      · rintro ⟨_, _, h⟩; rw [hp] at h; cases h
    | sample1 _ r0 hp hr =>
      refine ih.same rfl rfl rfl rfl (hpr.shell ?_ ?_ ?_ rfl rfl rfl rfl Iff.rfl)
      · rintro ⟨h1, h2, h3, h4, h5, h6⟩
        rw [h1] at hr
        have : r0 = true := hr.resolve_right (by simp)
        subst this
        exact ⟨h1, h2, by simp [sflag, h1], by simp, by simp, by simp⟩
      · rintro (⟨h1, h2, h3, h4, h5⟩ | ⟨_, _, h⟩ | ⟨_, _, h⟩)
        · exact .inl ⟨h1, h2, by simp, by simp, by simp [h1]⟩
        · rw [hp] at h; cases h
        · rw [hp] at h; cases h
      · rintro ⟨_, _, h⟩; rw [hp] at h; cases h
    | nothing _ hp hc =>
      refine ih.same rfl rfl rfl rfl (hpr.shell ?_ ?_ ?_ rfl rfl rfl rfl Iff.rfl)
      · rintro ⟨h1, h2, h3, h4, h5, h6⟩; exact ⟨h1, h2, rfl, by simp, by simp, by simp⟩
      · rintro (⟨h1, h2, h3, h4, h5⟩ | ⟨_, _, h⟩ | ⟨_, _, h⟩)
        · rw [hc] at h1; cases h1
        · rw [hp] at h; cases h
        · rw [hp] at h; cases h
      · rintro ⟨_, _, h⟩; rw [hp] at h; cases h
    | takeShell _ r1 q r hp hq =>
      refine ih.same rfl rfl rfl rfl (hpr.shell ?_ ?_ ?_ rfl rfl rfl rfl (by simp))
      · rintro ⟨h1, h2, h3, h4, h5, h6⟩
        rw [hp] at h3
        exact ⟨h1, h2, h3, by simp, by simp, by simp⟩
      · rintro (⟨h1, h2, h3, h4, h5⟩ | ⟨_, _, h⟩ | ⟨_, _, h⟩)
        · exact .inl ⟨h1, h2, by simp, by simp, by simp⟩
        · rw [hp] at h; cases h
        · rw [hp] at h; cases h
      · rintro ⟨_, _, h⟩; rw [hp] at h; cases h
    | skip _ r1 hp =>
      refine ih.same rfl rfl rfl rfl (hpr.shell ?_ ?_ ?_ rfl rfl rfl rfl Iff.rfl)
      · rintro ⟨h1, h2, h3, h4, h5, h6⟩; exact absurd hp (h6 _)
      · rintro (⟨h1, h2, h3, h4, h5⟩ | ⟨_, _, h⟩ | ⟨_, _, h⟩)
        · exact .inl ⟨h1, h2, by simp, by simp, by simp⟩
        · rw [hp] at h; cases h
        · rw [hp] at h; cases h
      · rintro ⟨_, _, h⟩; rw [hp] at h; cases h
    | workShell _ r1 p w' keep hp hs hk => exact ih.work (creach_kept (kinv_reach hr).conc hs).1 hk
    | doneShell _ r1 hp hd =>
      refine ih.same rfl rfl rfl rfl (hpr.shell ?_ ?_ ?_ rfl rfl rfl rfl Iff.rfl)
      · rintro ⟨h1, h2, h3, h4, h5, h6⟩; rw [hp] at h3; exact ⟨h1, h2, h3, by simp, by simp, by simp⟩
      · rintro (⟨h1, h2, h3, h4, h5⟩ | ⟨_, _, h⟩ | ⟨_, _, h⟩)
        · exact .inl ⟨h1, h2, by simp, by simp, by simp⟩
        · rw [hp] at h; cases h
        · rw [hp] at h; cases h
      · rintro ⟨_, _, h⟩; rw [hp] at h; cases h
    | again _ hp =>
      refine ih.same rfl rfl rfl rfl (hpr.shell ?_ ?_ ?_ rfl rfl rfl rfl Iff.rfl)
      · rintro ⟨h1, h2, h3, h4, h5, h6⟩; exact ⟨h1, h2, rfl, by simp, by simp, by simp⟩
      · rintro (⟨h1, h2, h3, h4, h5⟩ | ⟨_, _, h⟩ | ⟨_, _, h⟩)
        · exact .inl ⟨h1, h2, by simp, by simp, by simp⟩
        · rw [hp] at h; cases h
        · rw [hp] at h; cases h
      · rintro ⟨_, _, h⟩; rw [hp] at h; cases h
    | recvCtl _ hp =>
      refine ih.same rfl rfl rfl rfl (hpr.shell ?_ ?_ ?_ rfl rfl rfl rfl Iff.rfl)
      · rintro ⟨h1, h2, h3, h4, h5, h6⟩; rw [hp] at h3; cases h3
      · rintro (⟨h1, h2, h3, h4, h5⟩ | ⟨_, _, h⟩ | ⟨_, _, h⟩)
        · exact .inr (.inl ⟨rfl, h2, rfl⟩)
        · rw [hp] at h; cases h
        · rw [hp] at h; cases h
      · rintro ⟨_, _, h⟩; rw [hp] at h; cases h
    | sendCtl _ hp =>
      refine ih.same rfl rfl rfl rfl (hpr.shell ?_ ?_ ?_ rfl rfl rfl rfl Iff.rfl)
      · rintro ⟨h1, h2, h3, h4, h5, h6⟩; exact absurd hp h4
      · rintro (⟨h1, h2, h3, h4, h5⟩ | ⟨h1, _, h⟩ | ⟨_, _, h⟩)
        · exact absurd hp h3
        · exact .inr (.inr ⟨h1, rfl, rfl⟩)
        · rw [hp] at h; cases h
      · rintro ⟨_, _, h⟩; rw [hp] at h; cases h

/-- Once the command has been sent, the shell thread can see it or has seen it. -/
theorem sent_cases {st : Start σ} {s : Split σ} (h : Reach env I st s) (hs : SEv.sentStop ∈ s.log) :
    (s.ctl = true ∧ s.spc ≠ .ready false false) ∨ s.spc = .echo ∨ s.spc = .over := by
  have hp := (rinv_reach h).proto
  unfold Proto at hp
  have hc : SCommanded s → (s.ctl = true ∧ s.spc ≠ .ready false false) ∨ s.spc = .echo ∨ s.spc = .over := by
    rintro (⟨h1, _, _, _, h2⟩ | ⟨_, _, h⟩ | ⟨_, _, h⟩)
    · exact .inl ⟨h1, h2⟩
    · exact .inr (.inl h)
    · exact .inr (.inr h)
  split at hp <;> obtain ⟨h1, _, _, _, h2⟩ := hp
  · exact hc h1
  · exact .inr (.inr h1.2.2)
  · exact .inr (.inr h1.2.2)
  · exact .inr (.inr h1.2.2)
  · exact .inr (.inr h1.2.2)
  · exact .inr (.inr h1.2.2)
  · exact .inr (.inr h1.2.2)
  · exact absurd hs h2

/-- How many messages the shell thread may still take. -/
def budget : ShellPc → Nat
  | .ready true false => 2
  | .ready true true => 1
  | .busy false => 1
  | .asked false => 1
  | .poll => 1
  | .sampled true => 1
  | _ => 0

theorem budget_le (p : ShellPc) : budget p ≤ 2 := by unfold budget; split <;> omega

theorem Budget.same {s s' : Split σ} (h : ∀ a b, s.log = a ++ .sentStop :: b → tooks .shell b + budget s.spc ≤ 2)
    (h1 : s'.log = s.log) (h2 : SEv.sentStop ∈ s.log → budget s'.spc ≤ budget s.spc) :
    ∀ a b, s'.log = a ++ .sentStop :: b → tooks .shell b + budget s'.spc ≤ 2 := by
  intro a b hl
  rw [h1] at hl
  have := h a b hl
  have := h2 (by rw [hl]; simp)
  omega

theorem Budget.more {s s' : Split σ} {es : List SEv} (h : ∀ a b, s.log = a ++ .sentStop :: b → tooks .shell b + budget s.spc ≤ 2)
    (h1 : s'.log = s.log ++ es) (h3 : SEv.sentStop ∉ es) (h2 : tooks .shell es + budget s'.spc ≤ budget s.spc) :
    ∀ a b, s'.log = a ++ .sentStop :: b → tooks .shell b + budget s'.spc ≤ 2 := by
  intro a b hl
  rw [h1] at hl
  rcases mem_append_split hl with ⟨post', h'⟩ | ⟨e₁, h', _⟩
  · rw [h', List.append_assoc, List.cons_append] at hl
    have hbb := (List.cons.inj (List.append_cancel_left hl)).2
    have := h a post' h'
    rw [← hbb, tooks_append]
    omega
  · exact absurd (by rw [h']; simp) h3

theorem budget_reach {st : Start σ} {s : Split σ} (h : Reach env I st s) :
    ∀ a b, s.log = a ++ .sentStop :: b → tooks .shell b + budget s.spc ≤ 2 := by
  induction h with
  | init => intro a b h; simp [init] at h
  | step hr hs ih =>
    have hsent := sent_cases hr
    cases hs with
    | arriveShell _ q => exact Budget.more ih rfl (by simp) (by simp [tooks])
    | arriveControl _ q => exact Budget.more ih rfl (by simp) (by simp [tooks])
    | start _ hp => exact Budget.more ih rfl (by simp) (by simp [tooks])
    | takeControl _ q r hp hq => exact Budget.more ih rfl (by simp) (by simp [tooks])
    | workControl _ p w' keep hp hs hk => exact Budget.more ih rfl (by simp) (by rw [tooks_entries]; simp [Split.work])
    | stopSh _ hp =>
      intro a b hl
      rcases snoc_split hl with ⟨rfl, _, _⟩ | ⟨b', rfl, h'⟩
      · simpa [tooks] using budget_le _
      · have := ih a b' h'
        rw [tooks_append]
        simpa [tooks] using this
    | sample0 _ r hp _ => exact Budget.same ih rfl (fun _ => by simp only [hp]; cases r <;> simp [budget])
    | sample1 _ r0 hp _ =>
      refine Budget.same ih rfl fun hm => ?_
      rcases hsent hm with ⟨h1, _⟩ | h1 | h1
      · simp only [hp, h1]; cases r0 <;> simp [budget]
      · rw [hp] at h1; cases h1
      · rw [hp] at h1; cases h1
    | nothing _ hp hc =>
      refine Budget.same ih rfl fun hm => ?_
      rcases hsent hm with ⟨h1, _⟩ | h1 | h1
      · rw [hc] at h1; cases h1
      · rw [hp] at h1; cases h1
      · rw [hp] at h1; cases h1
    | takeShell _ r1 q r hp hq =>
      exact Budget.more ih rfl (by simp) (by simp only [hp]; cases r1 <;> simp [tooks, budget])
    | skip _ r1 hp =>
      refine Budget.same ih rfl fun hm => ?_
      rcases hsent hm with ⟨h1, h2⟩ | h1 | h1
      · cases r1 with
        | false => exact absurd hp h2
        | true => simp [hp, budget]
      · rw [hp] at h1; cases h1
      · rw [hp] at h1; cases h1
    | workShell _ r1 p w' keep hp hs hk => exact Budget.more ih rfl (by simp) (by rw [tooks_entries]; simp [Split.work])
    | doneShell _ r1 hp hd => exact Budget.same ih rfl (fun _ => by simp only [hp]; cases r1 <;> simp [budget])
    | again _ hp => exact Budget.same ih rfl (fun _ => by simp [hp, budget])
    | recvCtl _ hp => exact Budget.same ih rfl (fun _ => by simp [hp, budget])
    | sendCtl _ hp => exact Budget.same ih rfl (fun _ => by simp [hp, budget])
    | _ => exact Budget.same ih rfl fun _ => Nat.le_refl _

/-! ## Stale readiness -/

/-- The control thread has aborted no shell message. -/
def NoDrain (s : Split σ) : Prop := ∀ q, SEv.act (.drained .control q) ∉ s.log

/-- A message seen is there. -/
def Seen (s : Split σ) : Prop := (s.spc = .sampled true ∨ ∃ r, s.spc = .ready true r) → s.c.w.shellQ ≠ []

theorem suffix_same {w w' : World σ} (h : w'.shellQ <:+ w.shellQ)
    (hn : ∀ q, SEv.act (.drained .control q) ∉ (entries .control w w').map .act) : w'.shellQ = w.shellQ := by
  obtain ⟨x, hx⟩ := h
  cases x with
  | nil => exact hx
  | cons m x =>
    exfalso
    apply hn m
    apply List.mem_map_of_mem
    apply List.mem_append_left
    apply List.mem_map_of_mem
    rw [← hx]
    have : (m :: x ++ w'.shellQ).length - w'.shellQ.length = x.length + 1 := by simp; omega
    rw [this]
    simp

theorem seen_reach {st : Start σ} {s : Split σ} (h : Reach env I st s) : NoDrain s → Seen s := by
  induction h with
  | init => intro _ h; simp [init] at h
  | step hr hs ih =>
    intro hn
    have hnp : NoDrain _ := fun q hq => hn q (by
      cases hs with
      | arriveShell _ q => exact List.mem_append_left _ hq
      | arriveControl _ q => exact List.mem_append_left _ hq
      | start _ hp => exact List.mem_append_left _ hq
      | takeControl _ q r hp h => exact List.mem_append_left _ hq
      | workControl _ p w' keep hp hs hk => exact List.mem_append_left _ hq
      | stopSh _ hp => exact List.mem_append_left _ hq
      | takeShell _ r1 q r hp h => exact List.mem_append_left _ hq
      | workShell _ r1 p w' keep hp hs hk => exact List.mem_append_left _ hq
      | _ => exact hq)
    have ih := ih hnp
    cases hs with
    | arriveShell _ q => intro h; simp
    | workControl _ p w' keep hp hs hk =>
      intro h
      have : w'.shellQ = _ := suffix_same (creach_kept (kinv_reach hr).conc hs).2
        (fun q hq => hn q (List.mem_append_right _ hq))
      show w'.shellQ ≠ []
      rw [this]
      exact ih h
    | sample0 _ r hp hq =>
      intro h
      simp at h
      exact hq.1 h
    | sample1 _ r0 hp hq =>
      intro h
      simp at h
      exact ih (.inl (by rw [hp, h]))
    | nothing _ hp hq => intro h; simp at h
    | takeShell _ r1 q r hp hq => intro h; simp at h
    | skip _ r1 hp => intro h; simp at h
    | workShell _ r1 p w' keep hp hs hk => intro h; simp [Split.work, hp] at h
    | doneShell _ r1 hp hd => intro h; simp at h
    | again _ hp => intro h; simp at h
    | recvCtl _ hp => intro h; simp at h
    | sendCtl _ hp => intro h; simp at h
    | _ => exact ih

end Split

end Xeus
