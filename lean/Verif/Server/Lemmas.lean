import Verif.Server.Spec
import Verif.KernelConc.Invariant

/-!
# The default server: invariants (no property statements here)
-/

namespace Xeus

open Spec K

variable {σ : Type} {env : Env} {I : Interp σ}

/-- A step of a handler only adds events and only removes messages from the front of the shell queue. -/
theorem Phase.kept {t : Chan} {q : Multipart} {w w' : World σ} {tr : List Act} {p p' : K (World σ) Unit}
    (h : Phase env I t q w tr p) (hs : p.step w = some (p', w')) : w.out <+: w'.out ∧ w'.shellQ <:+ w.shellQ := by
  cases h with
  | refused _ _ => cases hs
  | begun ha =>
    simp only [K.step, setParent, Bind.bind, K.bind, K.modify, K.lift, Option.some.injEq, Prod.mk.injEq] at hs
    obtain ⟨rfl, hw⟩ := hs
    subst hw
    exact ⟨List.prefix_refl _, List.suffix_refl _⟩
  | half ha hid =>
    simp only [K.step, setHeader, Bind.bind, K.bind, K.modify, K.lift, Option.some.injEq, Prod.mk.injEq] at hs
    obtain ⟨rfl, hw⟩ := hs
    subst hw
    exact ⟨List.prefix_refl _, List.suffix_refl _⟩
  | work ha hp hc hsafe =>
    obtain ⟨h1, _, _⟩ := hsafe.step hp hs
    exact ⟨h1.out, h1.shellQ⟩

theorem creach_kept {st : Start σ} {s : Conc σ} (h : CReach env I st s) {t : Chan} {p : K (World σ) Unit} {w' : World σ}
    (hs : (s.prog t).step s.w = some (p, w')) : s.w.out <+: w'.out ∧ w'.shellQ <:+ s.w.shellQ := by
  rcases (cinv_reach h).thread t with ⟨_, h'⟩ | ⟨_, _, _, _, _, h6, _, _⟩
  · rw [h'] at hs; cases hs
  · exact h6.kept hs

theorem arrivedOn_append (c : Chan) (a b : List SEv) : arrivedOn c (a ++ b) = arrivedOn c a ++ arrivedOn c b := by
  induction a with
  | nil => rfl
  | cons x a ih =>
    cases x with
    | arrived c' q => simp only [List.cons_append, arrivedOn, ih]; split <;> rfl
    | poll => simp only [List.cons_append, arrivedOn, ih]
    | act _ => simp only [List.cons_append, arrivedOn, ih]
    | began => simp only [List.cons_append, arrivedOn, ih]
    | sentStop => simp only [List.cons_append, arrivedOn, ih]

theorem takenFrom_append (c : Chan) (a b : List SEv) : takenFrom c (a ++ b) = takenFrom c a ++ takenFrom c b := by
  induction a with
  | nil => rfl
  | cons x a ih =>
    cases x with
    | arrived c' q => simp only [List.cons_append, takenFrom, ih]
    | poll => simp only [List.cons_append, takenFrom, ih]
    | began => simp only [List.cons_append, takenFrom, ih]
    | sentStop => simp only [List.cons_append, takenFrom, ih]
    | act y =>
      cases y with
      | took t q => simp only [List.cons_append, takenFrom, ih]; split <;> rfl
      | drained t q => simp only [List.cons_append, takenFrom, ih]; split <;> rfl
      | did t e => simp only [List.cons_append, takenFrom, ih]

theorem arrivedOn_acts (c : Chan) (l : List Act) : arrivedOn c (l.map .act) = [] := by
  induction l with
  | nil => rfl
  | cons x l ih => simpa [arrivedOn] using ih

theorem takenFrom_dids (c t : Chan) (l : List Ev) : takenFrom c ((l.map (Act.did t)).map .act) = [] := by
  induction l with
  | nil => rfl
  | cons x l ih => simpa [takenFrom] using ih

theorem takenFrom_drained (c t : Chan) (l : List Multipart) :
    takenFrom c ((l.map (Act.drained t)).map .act) = if c = .shell then l else [] := by
  induction l with
  | nil => simp [takenFrom]
  | cons x l ih =>
    simp only [List.map_cons, takenFrom, ih]
    split <;> rfl

theorem takenFrom_entries (c t : Chan) {w w' : World σ} (h : w'.shellQ <:+ w.shellQ) :
    takenFrom c ((entries t w w').map .act) ++ (if c = .shell then w'.shellQ else []) =
      if c = .shell then w.shellQ else [] := by
  unfold entries
  rw [List.map_append, takenFrom_append, takenFrom_dids, takenFrom_drained, List.append_nil]
  obtain ⟨x, hx⟩ := h
  split
  · rw [← hx]; simp
  · rfl

theorem pubsOf_append (a b : List Ev) : pubsOf (a ++ b) = pubsOf a ++ pubsOf b := by
  induction a with
  | nil => rfl
  | cons x a ih => cases x <;> simp [pubsOf, ih]

theorem prefix_drop {α : Type} {a b : List α} (h : a <+: b) : b = a ++ b.drop a.length := by
  obtain ⟨x, rfl⟩ := h
  simp

theorem act_mem_entries {t : Chan} {w w' : World σ} {e : Ev} {t' : Chan} (h : Act.did t' e ∈ entries t w w') :
    t' = t ∧ e ∈ w'.out.drop w.out.length := by
  rcases List.mem_append.1 h with h | h
  · obtain ⟨_, _, h⟩ := List.mem_map.1 h; cases h
  · obtain ⟨x, hx, h⟩ := List.mem_map.1 h; cases h; exact ⟨rfl, hx⟩

theorem stop_of_drop {w w' : World σ} (hp : w.out <+: w'.out) (h : Ev.stop ∈ w'.out.drop w.out.length) : stopAsked w' := by
  unfold stopAsked
  rw [prefix_drop hp]
  exact List.mem_append_right _ h

namespace Main

/-- The kernel of the server is a run of the kernel; at most one message is being handled. -/
structure KInv (env : Env) (I : Interp σ) (st : Start σ) (s : Main σ) : Prop where
  conc : CReach env I st s.c
  idleC : (∀ rs, s.pc ≠ .control rs) → s.c.prog .control = .done (.ok ())
  idleS : s.pc ≠ .shell → s.c.prog .shell = .done (.ok ())

theorem kinv_reach {st : Start σ} {s : Main σ} (h : Reach env I st s) : KInv env I st s := by
  induction h with
  | start => exact ⟨.start, fun _ => rfl, fun _ => rfl⟩
  | step _ hs ih =>
    obtain ⟨h1, h2, h3⟩ := ih
    cases hs with
    | arriveShell _ q => exact ⟨h1.step (.arriveShell _ q), h2, h3⟩
    | arriveControl _ q => exact ⟨h1.step (.arriveControl _ q), h2, h3⟩
    | arriveStdin _ q => exact ⟨h1.step (.arriveStdin _ q), h2, h3⟩
    | ping _ i m => exact ⟨h1, h2, h3⟩
    | publisher _ a _ => exact ⟨h1, h2, h3⟩
    | heartbeat _ a _ => exact ⟨h1, h2, h3⟩
    | enter _ hp _ => exact ⟨h1, fun _ => h2 (by simp [hp]), fun _ => h3 (by simp [hp])⟩
    | sampleControl _ rc hp _ => exact ⟨h1, fun _ => h2 (by simp [hp]), fun _ => h3 (by simp [hp])⟩
    | sampleShell _ rc rs hp _ _ => exact ⟨h1, fun _ => h2 (by simp [hp]), fun _ => h3 (by simp [hp])⟩
    | nothing _ hp _ => exact ⟨h1, fun _ => h2 (by simp [hp]), fun _ => h3 (by simp [hp])⟩
    | takeControl _ rs q r hp hq =>
      have h2 := h2 (by simp [hp])
      have h3 := h3 (by simp [hp])
      exact ⟨h1.step (.takeControl _ q r h2 hq), fun h => absurd rfl (h rs), fun _ => h3⟩
    | noControl _ rs hp => exact ⟨h1, fun _ => h2 (by simp [hp]), fun _ => h3 (by simp [hp])⟩
    | workControl _ rs p w' keep hp hs _ =>
      have h3 := h3 (by simp [hp])
      exact ⟨h1.step (.act _ .control p w' hs), fun h => absurd hp (h rs), fun _ => h3⟩
    | doneControl _ rs hp hd => exact ⟨h1, fun _ => hd, fun _ => h3 (by simp [hp])⟩
    | shellNext _ hp _ => exact ⟨h1, fun _ => h2 (by simp [hp]), fun _ => h3 (by simp [hp])⟩
    | noShell _ rs hp _ => exact ⟨h1, fun _ => h2 (by simp [hp]), fun _ => h3 (by simp [hp])⟩
    | takeShell _ q r hp hq =>
      have h2 := h2 (by simp [hp])
      have h3 := h3 (by simp [hp])
      exact ⟨h1.step (.takeShell _ q r h3 hq), fun _ => h2, fun h => absurd rfl h⟩
    | workShell _ p w' keep hp hs _ =>
      have h2 := h2 (by simp [hp])
      exact ⟨h1.step (.act _ .shell p w' hs), fun _ => h2, fun h => absurd hp h⟩
    | doneShell _ hp hd => exact ⟨h1, fun _ => h2 (by simp [hp]), fun _ => hd⟩
    | leave _ hp _ => exact ⟨h1, fun _ => h2 (by simp [hp]), fun _ => h3 (by simp [hp])⟩
    | stopPub _ hp => exact ⟨h1, fun _ => h2 (by simp [hp]), fun _ => h3 (by simp [hp])⟩
    | waitPub _ hp _ => exact ⟨h1, fun _ => h2 (by simp [hp]), fun _ => h3 (by simp [hp])⟩
    | stopHb _ hp => exact ⟨h1, fun _ => h2 (by simp [hp]), fun _ => h3 (by simp [hp])⟩
    | waitHb _ hp _ => exact ⟨h1, fun _ => h2 (by simp [hp]), fun _ => h3 (by simp [hp])⟩

/-- Queues. -/
structure QInv (s : Main σ) : Prop where
  control : takenFrom .control s.log ++ s.c.controlQ = arrivedOn .control s.log
  shell : takenFrom .shell s.log ++ s.c.w.shellQ = arrivedOn .shell s.log

theorem QInv.same {s s' : Main σ} (h : QInv s) (h1 : s'.log = s.log) (h2 : s'.c.controlQ = s.c.controlQ)
    (h3 : s'.c.w.shellQ = s.c.w.shellQ) : QInv s' := ⟨by rw [h1, h2]; exact h.control, by rw [h1, h3]; exact h.shell⟩

theorem QInv.work {s : Main σ} (h : QInv s) {t : Chan} {p : K (World σ) Unit} {w' : World σ} {keep : List Multipart}
    (hk : w'.shellQ <:+ s.c.w.shellQ) : QInv (s.work t p w' keep) := by
  have ht := fun c => takenFrom_entries (w := s.c.w) (w' := w') c t hk
  refine ⟨?_, ?_⟩
  · simp only [Main.work, takenFrom_append, arrivedOn_append, arrivedOn_acts, List.append_nil]
    have := ht .control
    simp at this
    rw [this, List.append_nil]
    exact h.control
  · simp only [Main.work, takenFrom_append, arrivedOn_append, arrivedOn_acts, List.append_nil]
    have := ht .shell
    simp at this
    rw [List.append_assoc, this]
    exact h.shell

theorem qinv_reach {st : Start σ} {s : Main σ} (h : Reach env I st s) : QInv s := by
  induction h with
  | start => exact ⟨rfl, st.shellQ⟩
  | step hr hs ih =>
    cases hs with
    | arriveShell _ q =>
      obtain ⟨h1, h2⟩ := ih
      refine ⟨?_, ?_⟩
      · simpa [takenFrom_append, arrivedOn_append, takenFrom, arrivedOn] using h1
      · simp [takenFrom_append, arrivedOn_append, takenFrom, arrivedOn, ← h2]
    | arriveControl _ q =>
      obtain ⟨h1, h2⟩ := ih
      refine ⟨?_, ?_⟩
      · simp [takenFrom_append, arrivedOn_append, takenFrom, arrivedOn, ← h1]
      · simpa [takenFrom_append, arrivedOn_append, takenFrom, arrivedOn] using h2
    | arriveStdin _ q => exact ih.same rfl rfl rfl
    | ping _ i m => exact ih.same rfl rfl rfl
    | publisher _ a _ => exact ih.same rfl rfl rfl
    | heartbeat _ a _ => exact ih.same rfl rfl rfl
    | enter _ hp _ =>
      obtain ⟨h1, h2⟩ := ih
      exact ⟨by simpa [takenFrom_append, arrivedOn_append, takenFrom, arrivedOn] using h1,
        by simpa [takenFrom_append, arrivedOn_append, takenFrom, arrivedOn] using h2⟩
    | sampleControl _ rc hp _ => exact ih.same rfl rfl rfl
    | sampleShell _ rc rs hp _ _ => exact ih.same rfl rfl rfl
    | nothing _ hp _ => exact ih.same rfl rfl rfl
    | takeControl _ rs q r hp hq =>
      obtain ⟨h1, h2⟩ := ih
      refine ⟨?_, ?_⟩
      · rw [hq] at h1; simpa [takenFrom_append, arrivedOn_append, takenFrom, arrivedOn] using h1
      · simpa [takenFrom_append, arrivedOn_append, takenFrom, arrivedOn] using h2
    | noControl _ rs hp => exact ih.same rfl rfl rfl
    | workControl _ rs p w' keep hp hs _ => exact ih.work (creach_kept (kinv_reach hr).conc hs).2
    | doneControl _ rs hp hd => exact ih.same rfl rfl rfl
    | shellNext _ hp _ => exact ih.same rfl rfl rfl
    | noShell _ rs hp _ => exact ih.same rfl rfl rfl
    | takeShell _ q r hp hq =>
      obtain ⟨h1, h2⟩ := ih
      refine ⟨?_, ?_⟩
      · simpa [takenFrom_append, arrivedOn_append, takenFrom, arrivedOn] using h1
      · rw [hq] at h2; simpa [takenFrom_append, arrivedOn_append, takenFrom, arrivedOn] using h2
    | workShell _ p w' keep hp hs _ => exact ih.work (creach_kept (kinv_reach hr).conc hs).2
    | doneShell _ hp hd => exact ih.same rfl rfl rfl
    | leave _ hp _ => exact ih.same rfl rfl rfl
    | stopPub _ hp => exact ih.same rfl rfl rfl
    | waitPub _ hp _ => exact ih.same rfl rfl rfl
    | stopHb _ hp => exact ih.same rfl rfl rfl
    | waitHb _ hp _ => exact ih.same rfl rfl rfl

/-! ## Stop -/

/-- After a stop request the loop is left. -/
structure StopInv (s : Main σ) : Prop where
  asked : ∀ t, SEv.act (.did t .stop) ∈ s.log → stopAsked s.c.w
  pc : stopAsked s.c.w → s.pc ≠ .polling ∧ (∀ rc, s.pc ≠ .sampled rc) ∧ (∀ rc rs, s.pc ≠ .polled rc rs) ∧ s.pc ≠ .recv
  after : ∀ a t b, s.log = a ++ .act (.did t .stop) :: b → ∀ t' q, SEv.act (.took t' q) ∉ b

theorem StopInv.same {s s' : Main σ} (h : StopInv s) (h1 : s'.log = s.log) (h2 : s'.c.w.out = s.c.w.out)
    (h3 : stopAsked s'.c.w → s'.pc ≠ .polling ∧ (∀ rc, s'.pc ≠ .sampled rc) ∧ (∀ rc rs, s'.pc ≠ .polled rc rs) ∧ s'.pc ≠ .recv) :
    StopInv s' := by
  refine ⟨?_, h3, by rw [h1]; exact h.after⟩
  intro t
  rw [h1]
  unfold stopAsked
  rw [h2]
  exact h.asked t

/-- An entry that is not the handling of a message nor an event is added. -/
theorem StopInv.note {s s' : Main σ} {x : SEv} (h : StopInv s) (hx : ∀ a, x ≠ .act a) (h1 : s'.log = s.log ++ [x])
    (h2 : s'.c.w.out = s.c.w.out)
    (h3 : stopAsked s'.c.w → s'.pc ≠ .polling ∧ (∀ rc, s'.pc ≠ .sampled rc) ∧ (∀ rc rs, s'.pc ≠ .polled rc rs) ∧ s'.pc ≠ .recv) :
    StopInv s' := by
  refine ⟨?_, h3, ?_⟩
  · intro t ht
    rw [h1] at ht
    unfold stopAsked
    rw [h2]
    rcases List.mem_append.1 ht with ht | ht
    · exact h.asked t ht
    · exact absurd (List.mem_singleton.1 ht).symm (hx _)
  · intro a t b heq t' q hm
    rw [h1] at heq
    rcases snoc_split heq with ⟨_, hy, _⟩ | ⟨post', rfl, h'⟩
    · exact hx _ hy.symm
    · rcases List.mem_append.1 hm with hm | hm
      · exact h.after _ _ _ h' _ _ hm
      · exact hx _ (List.mem_singleton.1 hm).symm

/-- A message is received. -/
theorem StopInv.take {s s' : Main σ} {t₀ : Chan} {q₀ : Multipart} (h : StopInv s) (hns : ¬ stopAsked s.c.w)
    (h1 : s'.log = s.log ++ [.act (.took t₀ q₀)]) (h2 : s'.c.w.out = s.c.w.out) : StopInv s' := by
  have hns' : ¬ stopAsked s'.c.w := by unfold stopAsked; rw [h2]; exact hns
  refine ⟨?_, fun h => absurd h hns', ?_⟩
  · intro t ht
    rw [h1] at ht
    rcases List.mem_append.1 ht with ht | ht
    · exact absurd (h.asked t ht) hns
    · cases List.mem_singleton.1 ht
  · intro a t b heq
    rw [h1] at heq
    rcases snoc_split heq with ⟨_, hy, _⟩ | ⟨post', rfl, h'⟩
    · cases hy
    · exact absurd (h.asked t (by rw [h']; simp)) hns

theorem StopInv.work {s : Main σ} (h : StopInv s) {t : Chan} {p : K (World σ) Unit} {w' : World σ} {keep : List Multipart}
    (hk : s.c.w.out <+: w'.out) (hp : s.pc ≠ .polling ∧ (∀ rc, s.pc ≠ .sampled rc) ∧ (∀ rc rs, s.pc ≠ .polled rc rs) ∧ s.pc ≠ .recv) :
    StopInv (s.work t p w' keep) := by
  refine ⟨?_, fun _ => hp, ?_⟩
  · intro t' ht
    rcases List.mem_append.1 ht with ht | ht
    · exact hk.subset (h.asked t' ht)
    · obtain ⟨a, ha, h⟩ := List.mem_map.1 ht
      cases h
      exact stop_of_drop hk (act_mem_entries ha).2
  · intro a t' b heq t'' q hm
    rcases mem_append_split heq with ⟨post', h'⟩ | ⟨e₁, h1, _⟩
    · have heq' : s.log ++ (entries t s.c.w w').map .act = a ++ .act (.did t' .stop) :: b := heq
      rw [h', List.append_assoc, List.cons_append] at heq'
      have hb := (List.cons.inj (List.append_cancel_left heq')).2
      rw [← hb] at hm
      rcases List.mem_append.1 hm with hm | hm
      · exact h.after _ _ _ h' _ _ hm
      · obtain ⟨x, hx, h⟩ := List.mem_map.1 hm
        cases h
        exact entries_noTook _ _ _ _ _ hx
    · have : SEv.act (.took t'' q) ∈ (entries t s.c.w w').map .act := by rw [h1]; simp [hm]
      obtain ⟨x, hx, h⟩ := List.mem_map.1 this
      cases h
      exact entries_noTook _ _ _ _ _ hx

theorem stopinv_reach {st : Start σ} {s : Main σ} (h : Reach env I st s) : StopInv s := by
  induction h with
  | start => exact ⟨fun _ h => (by cases h), fun h => (by rw [stopAsked, show (init st).c.w.out = [] from st.out] at h; cases h),
      fun a t b h => by simp [init] at h⟩
  | step hr hs ih =>
    cases hs with
    | arriveShell _ q => exact ih.note (x := .arrived .shell q) (by simp) rfl rfl ih.pc
    | arriveControl _ q => exact ih.note (x := .arrived .control q) (by simp) rfl rfl ih.pc
    | arriveStdin _ q => exact ih.same rfl rfl ih.pc
    | ping _ i m => exact ih.same rfl rfl ih.pc
    | publisher _ a _ => exact ih.same rfl rfl ih.pc
    | heartbeat _ a _ => exact ih.same rfl rfl ih.pc
    | enter _ hp hn => exact ih.note (x := .poll) (by simp) rfl rfl fun h => absurd h hn
    | sampleControl _ rc hp _ => exact ih.same rfl rfl fun h => absurd hp (ih.pc h).1
    | sampleShell _ rc rs hp _ _ => exact ih.same rfl rfl fun h => absurd hp ((ih.pc h).2.1 _)
    | nothing _ hp _ => exact ih.same rfl rfl fun h => absurd hp ((ih.pc h).2.1 _)
    | takeControl _ rs q r hp hq => exact ih.take (fun h => absurd hp ((ih.pc h).2.2.1 _ _)) rfl rfl
    | noControl _ rs hp => exact ih.same rfl rfl fun h => absurd hp ((ih.pc h).2.2.1 _ _)
    | workControl _ rs p w' keep hp hs _ => exact ih.work (creach_kept (kinv_reach hr).conc hs).1 (by simp [hp])
    | doneControl _ rs hp hd => exact ih.same rfl rfl fun _ => by simp
    | shellNext _ hp hn => exact ih.same rfl rfl fun h => absurd h hn
    | noShell _ rs hp _ => exact ih.same rfl rfl fun _ => by simp
    | takeShell _ q r hp hq => exact ih.take (fun h => absurd hp (ih.pc h).2.2.2) rfl rfl
    | workShell _ p w' keep hp hs _ => exact ih.work (creach_kept (kinv_reach hr).conc hs).1 (by simp [hp])
    | doneShell _ hp hd => exact ih.same rfl rfl fun _ => by simp
    | leave _ hp _ => exact ih.same rfl rfl fun _ => by simp
    | stopPub _ hp => exact ih.same rfl rfl fun _ => by simp
    | waitPub _ hp _ => exact ih.same rfl rfl fun _ => by simp
    | stopHb _ hp => exact ih.same rfl rfl fun _ => by simp
    | waitHb _ hp _ => exact ih.same rfl rfl fun _ => by simp

/-! ## Priority of control messages -/

/-- A control message was waiting. -/
def pending (a : List SEv) : Prop := (takenFrom .control a).length < (arrivedOn .control a).length

/-- The main thread is going to take a control message. -/
def Going (s : Main σ) : Prop :=
  s.c.controlQ ≠ [] ∧ (s.pc = .polling ∨ s.pc = .sampled true ∨ ∃ rs, s.pc = .polled true rs)

structure PrioInv (s : Main σ) : Prop where
  last : ∀ a b, s.log = a ++ .poll :: b → SEv.poll ∉ b → pending a → (∃ q, SEv.act (.took .control q) ∈ b) ∨ Going s
  taken : ∀ a b q post, s.log = a ++ .poll :: b ++ .act (.took .shell q) :: post → SEv.poll ∉ b → pending a →
    ∃ q', SEv.act (.took .control q') ∈ b

theorem PrioInv.same {s s' : Main σ} (h : PrioInv s) (h1 : s'.log = s.log) (h2 : Going s → Going s') : PrioInv s' := by
  refine ⟨?_, by rw [h1]; exact h.taken⟩
  intro a b hl hn hp
  rw [h1] at hl
  rcases h.last a b hl hn hp with h | h
  · exact .inl h
  · exact .inr (h2 h)

/-- Entries other than polls and the handling of shell messages are added. -/
theorem PrioInv.more {s s' : Main σ} {es : List SEv} (h : PrioInv s) (h1 : s'.log = s.log ++ es) (hp : SEv.poll ∉ es)
    (ht : ∀ q, SEv.act (.took .shell q) ∉ es)
    (h2 : (∃ q, SEv.act (.took .control q) ∈ es) ∨ (Going s → Going s')) : PrioInv s' := by
  refine ⟨?_, ?_⟩
  · intro a b hl hn hpe
    rw [h1] at hl
    rcases mem_append_split hl with ⟨post', h'⟩ | ⟨e₁, h', _⟩
    · rw [h', List.append_assoc, List.cons_append] at hl
      have hb := (List.cons.inj (List.append_cancel_left hl)).2
      rcases h2 with ⟨q, hq⟩ | h2
      · exact .inl ⟨q, by rw [← hb]; exact List.mem_append_right _ hq⟩
      · rcases h.last a post' h' (fun hm => hn (by rw [← hb]; exact List.mem_append_left _ hm)) hpe with ⟨q, hq⟩ | hg
        · exact .inl ⟨q, by rw [← hb]; exact List.mem_append_left _ hq⟩
        · exact .inr (h2 hg)
    · exact absurd (by rw [h']; simp) hp
  · intro a b q post hl hn hpe
    rw [h1] at hl
    rcases mem_append_split hl with ⟨post', h'⟩ | ⟨e₁, h', _⟩
    · exact h.taken a b q post' h' hn hpe
    · exact absurd (by rw [h']; simp) (ht q)

theorem prio_reach {st : Start σ} {s : Main σ} (h : Reach env I st s) : PrioInv s := by
  induction h with
  | start => exact ⟨fun a b h => by simp [init] at h, fun a b q p h => by simp [init] at h⟩
  | step hr hs ih =>
    have hwork : ∀ (t : Chan) (w w' : World σ), SEv.poll ∉ (entries t w w').map SEv.act ∧
        (∀ q, SEv.act (.took .shell q) ∉ (entries t w w').map SEv.act) := by
      intro t w w'
      refine ⟨by simp, fun q hq => ?_⟩
      obtain ⟨x, hx, h⟩ := List.mem_map.1 hq
      cases h
      exact entries_noTook _ _ _ _ _ hx
    cases hs with
    | arriveShell _ q => exact ih.more rfl (by simp) (by simp) (.inr id)
    | arriveControl _ q => exact ih.more rfl (by simp) (by simp) (.inr fun h => ⟨by simp, h.2⟩)
    | arriveStdin _ q => exact ih.same rfl id
    | ping _ i m => exact ih.same rfl id
    | publisher _ a _ => exact ih.same rfl id
    | heartbeat _ a _ => exact ih.same rfl id
    | enter _ hp hn =>
      refine ⟨?_, ?_⟩
      · intro a b hl hnp hpe
        rcases snoc_split hl with ⟨_, _, rfl⟩ | ⟨post', rfl, h'⟩
        · refine .inr ⟨?_, .inl rfl⟩
          intro hq
          have := (qinv_reach hr).control
          simp only at hq
          rw [hq, List.append_nil] at this
          unfold pending at hpe
          rw [this] at hpe
          exact Nat.lt_irrefl _ hpe
        · exact absurd (by simp) hnp
      · intro a b q post hl hnp hpe
        rcases snoc_split hl with ⟨_, h, _⟩ | ⟨post', _, h'⟩
        · cases h
        · exact ih.taken a b q post' h' hnp hpe
    | sampleControl _ rc hp hrc =>
      refine ih.same rfl fun h => ⟨h.1, .inr (.inl ?_)⟩
      show MainPc.sampled rc = .sampled true
      rw [hrc.2 h.1]
    | sampleShell _ rc rs hp _ _ =>
      refine ih.same rfl fun h => ⟨h.1, .inr (.inr ⟨rs, ?_⟩)⟩
      rcases h.2 with h | h | ⟨_, h⟩ <;> rw [hp] at h <;> cases h
      rfl
    | nothing _ hp _ =>
      refine ih.same rfl fun h => ?_
      rcases h.2 with h | h | ⟨_, h⟩ <;> rw [hp] at h <;> cases h
    | takeControl _ rs q r hp hq => exact ih.more rfl (by simp) (by simp) (.inl ⟨q, by simp⟩)
    | noControl _ rs hp =>
      refine ih.same rfl fun h => ?_
      rcases h.2 with h | h | ⟨_, h⟩ <;> rw [hp] at h <;> cases h
    | workControl _ rs p w' keep hp hs _ =>
      exact ih.more (es := (entries .control _ w').map .act) rfl (hwork _ _ _).1 (hwork _ _ _).2
        (.inr fun h => by rcases h.2 with h | h | ⟨_, h⟩ <;> rw [hp] at h <;> cases h)
    | doneControl _ rs hp hd =>
      refine ih.same rfl fun h => ?_
      rcases h.2 with h | h | ⟨_, h⟩ <;> rw [hp] at h <;> cases h
    | shellNext _ hp hn =>
      refine ih.same rfl fun h => ?_
      rcases h.2 with h | h | ⟨_, h⟩ <;> rw [hp] at h <;> cases h
    | noShell _ rs hp _ =>
      refine ih.same rfl fun h => ?_
      rcases h.2 with h | h | ⟨_, h⟩ <;> rw [hp] at h <;> cases h
    | takeShell _ q r hp hq =>
      refine ⟨?_, ?_⟩
      · intro a b hl hnp hpe
        rcases snoc_split hl with ⟨_, h, _⟩ | ⟨post', rfl, h'⟩
        · cases h
        · rcases ih.last a post' h' (fun h => hnp (List.mem_append_left _ h)) hpe with ⟨q', h⟩ | h
          · exact .inl ⟨q', List.mem_append_left _ h⟩
          · rcases h.2 with h | h | ⟨_, h⟩ <;> rw [hp] at h <;> cases h
      · intro a b q' post hl hnp hpe
        rcases snoc_split hl with ⟨_, _, h'⟩ | ⟨post', _, h'⟩
        · rcases ih.last a b h'.symm hnp hpe with h | h
          · exact h
          · rcases h.2 with h | h | ⟨_, h⟩ <;> rw [hp] at h <;> cases h
        · exact ih.taken a b q' post' h' hnp hpe
    | workShell _ p w' keep hp hs _ =>
      exact ih.more (es := (entries .shell _ w').map .act) rfl (hwork _ _ _).1 (hwork _ _ _).2
        (.inr fun h => by rcases h.2 with h | h | ⟨_, h⟩ <;> rw [hp] at h <;> cases h)
    | doneShell _ hp hd =>
      refine ih.same rfl fun h => ?_
      rcases h.2 with h | h | ⟨_, h⟩ <;> rw [hp] at h <;> cases h
    | leave _ hp _ =>
      refine ih.same rfl fun h => ?_
      rcases h.2 with h | h | ⟨_, h⟩ <;> rw [hp] at h <;> cases h
    | stopPub _ hp =>
      refine ih.same rfl fun h => ?_
      rcases h.2 with h | h | ⟨_, h⟩ <;> rw [hp] at h <;> cases h
    | waitPub _ hp _ =>
      refine ih.same rfl fun h => ?_
      rcases h.2 with h | h | ⟨_, h⟩ <;> rw [hp] at h <;> cases h
    | stopHb _ hp =>
      refine ih.same rfl fun h => ?_
      rcases h.2 with h | h | ⟨_, h⟩ <;> rw [hp] at h <;> cases h
    | waitHb _ hp _ =>
      refine ih.same rfl fun h => ?_
      rcases h.2 with h | h | ⟨_, h⟩ <;> rw [hp] at h <;> cases h

end Main

end Xeus
