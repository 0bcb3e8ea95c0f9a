import Verif.KernelConc.AnswerProps
import Verif.Server.ServiceProps

/-!
# Replies of the split servers: lemmas
-/

namespace Xeus

open Spec K

variable {σ : Type} {env : Env} {I : Interp σ}

/-! ## The log -/

theorem actsIn_append (a b : List SEv) : actsIn (a ++ b) = actsIn a ++ actsIn b := by
  induction a with
  | nil => rfl
  | cons x a ih => cases x <;> simp [actsIn, ih]

theorem actsIn_map (l : List Act) : actsIn (l.map .act) = l := by
  induction l with
  | nil => rfl
  | cons x l ih => simp [actsIn, ih]

theorem mem_actsIn {x : Act} {l : List SEv} : x ∈ actsIn l ↔ SEv.act x ∈ l := by
  induction l with
  | nil => simp [actsIn]
  | cons y l ih => cases y <;> simp [actsIn, ih]

/-- Up to the next message. -/
theorem until_took (t : Chan) (l : List SEv) : ∃ l₁ l₂, l = l₁ ++ l₂ ∧ (∀ x, SEv.act (.took t x) ∉ l₁) ∧
    (l₂ = [] ∨ ∃ x l₃, l₂ = .act (.took t x) :: l₃) := by
  induction l with
  | nil => exact ⟨[], [], rfl, by simp, .inl rfl⟩
  | cons y l ih =>
    by_cases h : ∃ x, y = .act (.took t x)
    · obtain ⟨x, rfl⟩ := h
      exact ⟨[], _, rfl, by simp, .inr ⟨x, l, rfl⟩⟩
    · obtain ⟨l₁, l₂, rfl, h1, h2⟩ := ih
      refine ⟨y :: l₁, l₂, rfl, fun x hx => ?_, h2⟩
      rcases List.mem_cons.1 hx with h3 | h3
      · exact h ⟨x, h3.symm⟩
      · exact h1 x h3

/-- The last message before. -/
theorem since_took (t : Chan) (l : List SEv) (h : ∃ x, SEv.act (.took t x) ∈ l) : ∃ l₀ q l₁, l = l₀ ++ .act (.took t q) :: l₁ ∧
    (∀ x, SEv.act (.took t x) ∉ l₁) := by
  induction l with
  | nil => obtain ⟨x, hx⟩ := h; cases hx
  | cons y l ih =>
    by_cases h' : ∃ x, SEv.act (.took t x) ∈ l
    · obtain ⟨l₀, q, l₁, rfl, h1⟩ := ih h'
      exact ⟨y :: l₀, q, l₁, rfl, h1⟩
    · obtain ⟨x, hx⟩ := h
      rcases List.mem_cons.1 hx with rfl | hx
      · exact ⟨[], x, l, rfl, fun z hz => h' ⟨z, hz⟩⟩
      · exact absurd ⟨x, hx⟩ h'

/-- A thread does something only while it handles a message. -/
theorem handling_reach {st : Start σ} {s : Conc σ} (h : CReach env I st s) (pre : List Act) (x : Act) (post : List Act)
    (hl : s.log = pre ++ x :: post) : (∃ q, x = .took x.thread q) ∨ ∃ q, Act.took x.thread q ∈ pre := by
  induction h generalizing pre x post with
  | start => simp at hl
  | @step s s' hr hs ih =>
    cases hs with
    | arriveShell q => exact ih _ _ _ hl
    | arriveControl q => exact ih _ _ _ hl
    | arriveStdin q => exact ih _ _ _ hl
    | takeShell q r hp _ =>
      rcases List.append_eq_append_iff.1 hl with ⟨y, h1, h2⟩ | ⟨y, h1, h2⟩
      · cases y with
        | nil => simp at h2; exact .inl ⟨q, by rw [← h2.1]; rfl⟩
        | cons z y => simp at h2
      · cases y with
        | nil => simp at h2; exact .inl ⟨q, by rw [h2.1]; rfl⟩
        | cons z y =>
          simp only [List.cons_append, List.cons.injEq] at h2
          exact ih pre x y (by rw [h1, h2.1])
    | takeControl q r hp _ =>
      rcases List.append_eq_append_iff.1 hl with ⟨y, h1, h2⟩ | ⟨y, h1, h2⟩
      · cases y with
        | nil => simp at h2; exact .inl ⟨q, by rw [← h2.1]; rfl⟩
        | cons z y => simp at h2
      · cases y with
        | nil => simp at h2; exact .inl ⟨q, by rw [h2.1]; rfl⟩
        | cons z y =>
          simp only [List.cons_append, List.cons.injEq] at h2
          exact ih pre x y (by rw [h1, h2.1])
    | act t p w' hst =>
      have hmem : ∃ q, Act.took t q ∈ s.log := by
        rcases (cinv_reach hr).thread t with ⟨_, h2⟩ | ⟨a, q, seg, h1, _⟩
        · rw [h2] at hst; cases hst
        · exact ⟨q, by rw [h1]; simp⟩
      rcases List.append_eq_append_iff.1 hl with ⟨y, h1, h2⟩ | ⟨y, h1, h2⟩
      · have : x ∈ entries t s.w w' := by rw [h2]; simp
        rw [entries_thread _ _ _ _ this, h1]
        obtain ⟨q, hq⟩ := hmem
        exact .inr ⟨q, List.mem_append_left _ hq⟩
      · cases y with
        | nil =>
          have : x ∈ entries t s.w w' := by simp at h2; rw [← h2]; simp
          rw [entries_thread _ _ _ _ this]
          rw [List.append_nil] at h1
          rw [← h1]
          exact .inr hmem
        | cons z y =>
          simp only [List.cons_append, List.cons.injEq] at h2
          exact ih pre x y (by rw [h1, h2.1])

namespace Split

/-- The kernel makes at most one step. -/
theorem step_conc {st : Start σ} {s s' : Split σ} {a : SWho} (hr : Reach env I st s) (h : Step env I a s s') :
    s'.c = s.c ∨ CStep env I s.c s'.c := by
  obtain ⟨_, h2, h3⟩ := kinv_reach hr
  cases h with
  | arriveShell _ q => exact .inr (.arriveShell _ q)
  | arriveControl _ q => exact .inr (.arriveControl _ q)
  | arriveStdin _ q => exact .inr (.arriveStdin _ q)
  | takeControl _ q r hp hq => exact .inr (.takeControl _ q r (h2 (by simp [hp])) hq)
  | workControl _ p w' keep hp hs _ => exact .inr (.act _ .control p w' hs)
  | takeShell _ r1 q r hp hq => exact .inr (.takeShell _ q r (h3 (by simp [hp])) hq)
  | workShell _ r1 p w' keep hp hs _ => exact .inr (.act _ .shell p w' hs)
  | _ => exact .inl rfl

theorem run_exec {st : Start σ} (e : Execution (Step env I)) (h0 : e.state 0 = init st) (G : World σ → Prop)
    (hg : ∀ i, G (e.state i).c.w) (n : Nat) : CRun env I st G (e.state n).c := by
  induction n with
  | zero => have := hg 0; rw [h0] at this ⊢; exact .start this
  | succ n ih =>
    have := e.ok n
    cases hw : e.who n with
    | none => rw [hw] at this; simp only at this; rw [this]; exact ih
    | some a =>
      rw [hw] at this
      rcases step_conc (reach_exec e h0 n) this with h | h
      · rw [h]; exact ih
      · exact ih.step h (hg (n + 1))

/-- What the kernel logs. -/
theorem acts_reach {st : Start σ} {s : Split σ} (h : Reach env I st s) : actsIn s.log = s.c.log := by
  induction h with
  | init => rfl
  | step _ hs ih =>
    cases hs with
    | workControl _ p w' keep hp hs _ => simp only [Split.work, actsIn_append, actsIn_map, ih]
    | workShell _ r1 p w' keep hp hs _ => simp only [Split.work, actsIn_append, actsIn_map, ih]
    | _ => first | exact ih | (simp only [actsIn_append, ih]; first | rfl | simp [actsIn])

/-- The thread is not handling a message. -/
def Free (s : Split σ) : Chan → Prop
  | .control => s.kpc ≠ .busy
  | .shell => ∀ r, s.spc ≠ .busy r

/-- The thread that reads a socket. -/
def reader : Chan → SWho
  | .control => .control
  | .shell => .shell

theorem free_step {t : Chan} {a : SWho} {s s' : Split σ} (hi : ¬ Free s t) (h : Step env I a s s') :
    Free s' t ∨ Next (s'.c.prog t) (s.c.prog t) ∨ (a ≠ reader t ∧ s'.c.prog t = s.c.prog t) := by
  cases t with
  | control =>
    have hb : s.kpc = .busy := Classical.not_not.1 hi
    cases h with
    | workControl _ p w' keep hp hs _ =>
      refine .inr (.inl ?_)
      simp only [Split.work, setProg, if_true]
      exact ⟨_, _, hs⟩
    | doneControl _ hp hd => exact .inl (by simp [Free])
    | workShell _ r1 p w' keep hp hs _ => exact .inr (.inr ⟨by simp [reader], by simp [Split.work, setProg]⟩)
    | takeShell _ r1 q r hp hq => exact .inr (.inr ⟨by simp [reader], by simp [setProg]⟩)
    | _ => first
      | (rename_i hp; rw [hb] at hp; cases hp)
      | (rename_i hp _; rw [hb] at hp; cases hp)
      | exact .inr (.inr ⟨by simp [reader], rfl⟩)
  | shell =>
    have hb : ∃ r, s.spc = .busy r := Classical.byContradiction fun hn => hi fun r hr => hn ⟨r, hr⟩
    obtain ⟨r, hb⟩ := hb
    cases h with
    | workShell _ r1 p w' keep hp hs _ =>
      refine .inr (.inl ?_)
      simp only [Split.work, setProg, if_true]
      exact ⟨_, _, hs⟩
    | doneShell _ r1 hp hd => exact .inl (by simp [Free])
    | workControl _ p w' keep hp hs _ => exact .inr (.inr ⟨by simp [reader], by simp [Split.work, setProg]⟩)
    | takeControl _ q r hp hq => exact .inr (.inr ⟨by simp [reader], by simp [setProg]⟩)
    | _ => first
      | (rename_i hp; rw [hb] at hp; cases hp)
      | (rename_i hp _; rw [hb] at hp; cases hp)
      | exact .inr (.inr ⟨by simp [reader], rfl⟩)

/-- Every handler ends. -/
theorem free_again (e : Execution (Step env I)) (t : Chan) (hf : Fair e (reader t)) (n : Nat)
    (hh : ∀ m, n ≤ m → Healthy (e.state m)) : ∃ m, n ≤ m ∧ Free (e.state m) t := by
  refine progress next_wf e Healthy (fun s => Free s t) (fun s => s.c.prog t) (fun _ => reader t) n hh (fun _ _ _ => hf) ?_ ?_
  · intro s h hi
    cases t with
    | control =>
      have hb : s.kpc = .busy := Classical.not_not.1 hi
      by_cases hd : s.c.prog .control = .done (.ok ())
      · exact ⟨_, .doneControl s hb hd⟩
      · obtain ⟨p', w', h⟩ := K.can_step (h .control) hd s.c.w
        exact ⟨_, .workControl s p' w' _ hb h (fun _ => List.Sublist.refl _)⟩
    | shell =>
      have hb : ∃ r, s.spc = .busy r := Classical.byContradiction fun hn => hi fun r hr => hn ⟨r, hr⟩
      obtain ⟨r, hb⟩ := hb
      by_cases hd : s.c.prog .shell = .done (.ok ())
      · exact ⟨_, .doneShell s r hb hd⟩
      · obtain ⟨p', w', h⟩ := K.can_step (h .shell) hd s.c.w
        exact ⟨_, .workShell s r p' w' _ hb h (fun _ => List.Sublist.refl _)⟩
  · intro a s s' _ _ hi hs
    rcases free_step hi hs with h | h | h
    · exact .inl h
    · exact .inr (.inl h)
    · exact .inr (.inr ⟨h.1, h.2, rfl⟩)

/-- A thread that is free has finished every message it received. -/
theorem over_free {st : Start σ} {s : Split σ} (h : Reach env I st s) {t : Chan} (hf : Free s t) {l₀ l₁ l₂ : List SEv} {q : Multipart}
    (hl : s.log = l₀ ++ .act (.took t q) :: (l₁ ++ l₂)) (h1 : ∀ x, SEv.act (.took t x) ∉ l₁)
    (h2 : l₂ = [] ∨ ∃ x l₃, l₂ = .act (.took t x) :: l₃) : Over s.c t q (actsIn l₁) := by
  refine ⟨actsIn l₀, actsIn l₂, ?_, fun x hx => h1 x (mem_actsIn.1 hx), ?_⟩
  · rw [← acts_reach h, hl]
    simp [actsIn_append, actsIn]
  · rcases h2 with rfl | ⟨x, l₃, rfl⟩
    · refine .inr ⟨rfl, ?_⟩
      cases t with
      | control => exact (kinv_reach h).idleC hf
      | shell => exact (kinv_reach h).idleS hf
    · exact .inl ⟨x, actsIn l₃, rfl⟩

/-- A message that was handled. -/
theorem handled_answered (hs : Sane env) {st : Start σ} {s : Split σ} (h : Reach env I st s) {m : XMessage} {r : Req}
    (hc : CRun env I st (fun w => Obliging env I m w r) s.c) {t : Chan} (hf : Free s t) {l₀ l : List SEv} {q : Multipart}
    (hl : s.log = l₀ ++ .act (.took t q) :: l) (ha : Accepted env.C env.J env.auth q m) (hr : IsReq m r) :
    AnsweredBy env s.log t (takenFrom t l₀).length q m r := by
  obtain ⟨l₁, l₂, rfl, h1, h2⟩ := until_took t l
  have hrt : ∃ rt, replyType r = some rt := by
    have : ∀ c, CRun env I st (fun w => Obliging env I m w r) c → ∃ w, Obliging env I m w r := by
      intro c hc
      cases hc with
      | start h => exact ⟨_, h⟩
      | step _ _ h => exact ⟨_, h⟩
    obtain ⟨w, hw⟩ := this _ hc
    cases r <;> first | exact ⟨_, rfl⟩ | exact hw.elim
  obtain ⟨rt, hrt⟩ := hrt
  obtain ⟨own, h3, h4⟩ := C80_answer env hs I st s.c m r rt hc t q _ (over_free h hf hl h1 h2) ha hr hrt
  refine ⟨l₀, l₁, l₂, rt, own, hl, rfl, h1, hrt, h3, ?_⟩
  rcases h4 with h4 | ⟨h4, e, he⟩
  · exact .inl h4
  · exact .inr ⟨h4, e, mem_actsIn.1 (mem_eventsOf he)⟩

/-- A message that was aborted. -/
theorem drained_answered (hs : Sane env) {st : Start σ} {s : Split σ} (h : Reach env I st s) {t : Chan} (hf : Free s t)
    {l₀ l : List SEv} {q : Multipart} (hl : s.log = l₀ ++ .act (.drained t q) :: l) {m : XMessage}
    (ha : Accepted env.C env.J env.auth q m) : AbortedBy env s.log (takenFrom .shell l₀).length q m := by
  have hb : ∃ x, SEv.act (.took t x) ∈ l₀ := by
    rcases handling_reach (kinv_reach h).conc (actsIn l₀) (.drained t q) (actsIn l)
      (by rw [← acts_reach h, hl]; simp [actsIn_append, actsIn]) with ⟨_, h⟩ | ⟨x, h⟩
    · cases h
    · exact ⟨x, mem_actsIn.1 h⟩
  obtain ⟨m₀, q', a, rfl, h1⟩ := since_took t l₀ hb
  obtain ⟨b, l₂, rfl, h2, h3⟩ := until_took t l
  refine ⟨m₀, t, q', a, b, l₂, by rw [hl]; simp, rfl, ?_, fun hab => ?_⟩
  · intro x hx
    rcases List.mem_append.1 hx with hx | hx
    · exact h1 x hx
    · exact h2 x hx
  · have ho := over_free h hf (l₀ := m₀) (q := q') (l₁ := a ++ .act (.drained t q) :: b) (l₂ := l₂) (by rw [hl]; simp) (by
      intro x hx
      rcases List.mem_append.1 hx with hx | hx
      · exact h1 x hx
      · rcases List.mem_cons.1 hx with hx | hx
        · cases hx
        · exact h2 x hx) h3
    obtain ⟨rep, h4, h5⟩ := C80_aborted env hs I st s.c (kinv_reach h).conc t q' _ ho q (mem_actsIn.2 (by simp)) hab m ha
    refine ⟨rep, ?_, h5⟩
    have h6 := mem_actsIn.1 h4
    rcases List.mem_append.1 h6 with h6 | h6
    · exact List.mem_append_left _ h6
    · rcases List.mem_cons.1 h6 with h6 | h6
      · cases h6
      · exact List.mem_append_right _ h6

end Split

end Xeus
