import Verif.Server.Lemmas
import Verif.KernelConc.Serial

/-!
# The default server handles one message after the other: invariant (no property statements here)
-/

namespace Xeus

open Spec K

variable {σ : Type} {env : Env} {I : Interp σ}

theorem handledIn_append (a b : List SEv) : handledIn (a ++ b) = handledIn a ++ handledIn b := by
  induction a with
  | nil => rfl
  | cons x a ih =>
    cases x with
    | act y => cases y <;> simp [handledIn, ih]
    | _ => simp [handledIn, ih]

theorem eventsIn_append (a b : List SEv) : eventsIn (a ++ b) = eventsIn a ++ eventsIn b := by
  induction a with
  | nil => rfl
  | cons x a ih =>
    cases x with
    | act y => cases y <;> simp [eventsIn, ih]
    | _ => simp [eventsIn, ih]

theorem handledIn_entries (t : Chan) (w w' : World σ) : handledIn ((entries t w w').map .act) = [] := by
  have h1 : ∀ l : List Multipart, handledIn ((l.map (Act.drained t)).map .act) = [] := by
    intro l
    induction l with
    | nil => rfl
    | cons _ _ ih => simpa [handledIn] using ih
  have h2 : ∀ l : List Ev, handledIn ((l.map (Act.did t)).map .act) = [] := by
    intro l
    induction l with
    | nil => rfl
    | cons _ _ ih => simpa [handledIn] using ih
  unfold entries
  rw [List.map_append, handledIn_append, h1, h2]
  rfl

theorem eventsIn_entries (t : Chan) (w w' : World σ) :
    eventsIn ((entries t w w').map .act) = w'.out.drop w.out.length := by
  have h1 : ∀ l : List Multipart, eventsIn ((l.map (Act.drained t)).map .act) = [] := by
    intro l
    induction l with
    | nil => rfl
    | cons _ _ ih => simpa [eventsIn] using ih
  have h2 : ∀ l : List Ev, eventsIn ((l.map (Act.did t)).map .act) = l := by
    intro l
    induction l with
    | nil => rfl
    | cons _ _ ih => simpa [eventsIn] using ih
  unfold entries
  rw [List.map_append, eventsIn_append, h1, h2]
  rfl

theorem handledIn_split {l : List SEv} (h : handledIn l ≠ []) :
    ∃ a c q b, l = a ++ .act (.took c q) :: b ∧ handledIn b = [] := by
  induction l with
  | nil => simp [handledIn] at h
  | cons x l ih =>
    by_cases hl : handledIn l = []
    · cases x with
      | act y =>
        cases y with
        | took c q => exact ⟨[], c, q, l, rfl, hl⟩
        | _ => simp [handledIn, hl] at h
      | _ => simp [handledIn, hl] at h
    · obtain ⟨a, c, q, b, rfl, hb⟩ := ih hl
      exact ⟨x :: a, c, q, b, rfl, hb⟩

/-- There is one last message. -/
theorem last_handled {l₀ m₀ l m : List SEv} {c c' : Chan} {q q' : Multipart}
    (h : l₀ ++ .act (.took c q) :: l = m₀ ++ .act (.took c' q') :: m) (hl : handledIn l = []) (hm : handledIn m = []) :
    l₀ = m₀ ∧ c = c' ∧ q = q' ∧ l = m := by
  rcases List.append_eq_append_iff.1 h with ⟨x, h1, h2⟩ | ⟨x, h1, h2⟩
  · cases x with
    | nil => simp at h1 h2; exact ⟨h1.symm, h2.1.1, h2.1.2, h2.2⟩
    | cons y x =>
      simp only [List.cons_append, List.cons.injEq] at h2
      rw [h2.2, handledIn_append] at hl
      simp [handledIn] at hl
  · cases x with
    | nil => simp at h1 h2; exact ⟨h1, h2.1.1.symm, h2.1.2.symm, h2.2.symm⟩
    | cons y x =>
      simp only [List.cons_append, List.cons.injEq] at h2
      rw [h2.2, handledIn_append] at hm
      simp [handledIn] at hm

/-- A message is received in the first part if none is in the second. -/
theorem took_left {log es l₀ l : List SEv} {c : Chan} {q : Multipart} (h : log ++ es = l₀ ++ .act (.took c q) :: l)
    (he : handledIn es = []) : ∃ l', log = l₀ ++ .act (.took c q) :: l' ∧ l = l' ++ es := by
  rcases List.append_eq_append_iff.1 h with ⟨x, h1, h2⟩ | ⟨x, h1, h2⟩
  · rw [h2, handledIn_append] at he
    simp [handledIn] at he
  · cases x with
    | nil =>
      simp at h2
      rw [← h2] at he
      simp [handledIn] at he
    | cons y x =>
      simp only [List.cons_append, List.cons.injEq] at h2
      obtain ⟨rfl, rfl⟩ := h2
      exact ⟨x, h1, rfl⟩

theorem Spec.Serial.more {st : Start σ} {hs : List (Chan × Multipart)} {as : List Multipart} {w : World σ} (A B : List Multipart)
    (h : Serial env I st hs as w) : Serial env I st hs (as ++ A) (w.more A B) := h.arrive A B

namespace Main

/-- What the handlers did is what is in the log. -/
theorem events_reach {st : Start σ} {s : Main σ} (h : Reach env I st s) : eventsIn s.log = s.c.w.out := by
  have hw : ∀ {s : Main σ} {t : Chan} {p : K (World σ) Unit} {w' : World σ} {keep : List Multipart},
      eventsIn s.log = s.c.w.out → s.c.w.out <+: w'.out →
      eventsIn (s.work t p w' keep).log = (s.work t p w' keep).c.w.out := by
    intro s t p w' keep h hp
    simp only [Main.work, eventsIn_append, eventsIn_entries, h]
    exact (prefix_drop hp).symm
  induction h with
  | start => exact st.out.symm
  | step hr hs ih =>
    cases hs with
    | workControl _ rs p w' keep hp hs _ => exact hw ih (creach_kept (kinv_reach hr).conc hs).1
    | workShell _ p w' keep hp hs _ => exact hw ih (creach_kept (kinv_reach hr).conc hs).1
    | _ => simpa [eventsIn_append, eventsIn] using ih

/-- What the main thread is doing. -/
inductive AInv (env : Env) (I : Interp σ) (st : Start σ) (s : Main σ) : Prop
  | idle : Spec.Idle s → Serial env I st (handledIn s.log) (arrivedOn .shell s.log) s.c.w → AInv env I st s
  | control {rs l₀ l₁ q B w₀} : s.pc = .control rs → s.log = l₀ ++ .act (.took .control q) :: l₁ → handledIn l₁ = [] →
      Serial env I st (handledIn l₀) (arrivedOn .shell l₀) w₀ → w₀.out = eventsIn l₀ →
      takenFrom .shell l₀ ++ w₀.shellQ = arrivedOn .shell l₀ → ¬ stopAsked w₀ →
      Walk (dispatch env I q .control) w₀ (arrivedOn .shell l₁) B (s.c.prog .control) s.c.w → AInv env I st s
  | shell {l₀ l₁ q r B w₀} : s.pc = .shell → s.log = l₀ ++ .act (.took .shell q) :: l₁ → handledIn l₁ = [] →
      Serial env I st (handledIn l₀) (arrivedOn .shell l₀) w₀ → w₀.out = eventsIn l₀ →
      takenFrom .shell l₀ ++ w₀.shellQ = arrivedOn .shell l₀ → ¬ stopAsked w₀ → w₀.shellQ = q :: r →
      Walk (dispatch env I q .shell) { w₀ with shellQ := r } (arrivedOn .shell l₁) B (s.c.prog .shell) s.c.w → AInv env I st s

/-- Nothing that matters changes. -/
theorem AInv.move {st : Start σ} {s s' : Main σ} (h : AInv env I st s) (h0 : Spec.Idle s) (h1 : Spec.Idle s')
    (h2 : handledIn s'.log = handledIn s.log) (h3 : arrivedOn .shell s'.log = arrivedOn .shell s.log) (h4 : s'.c.w = s.c.w) :
    AInv env I st s' := by
  cases h with
  | idle _ h => exact .idle h1 (by rw [h2, h3, h4]; exact h)
  | control hp => exact absurd hp (h0.1 _)
  | shell hp => exact absurd hp h0.2

theorem AInv.arrive {st : Start σ} {s s' : Main σ} (h : AInv env I st s) (es : List SEv) (B : List Multipart) (h1 : s'.pc = s.pc)
    (h2 : s'.log = s.log ++ es) (h3 : handledIn es = []) (h4 : s'.c.w = s.c.w.more (arrivedOn .shell es) B)
    (h5 : s'.c.prog = s.c.prog) : AInv env I st s' := by
  cases h with
  | idle ha h =>
    exact .idle (by unfold Idle; rw [h1]; exact ha)
      (by rw [h2, handledIn_append, arrivedOn_append, h3, h4, List.append_nil]; exact h.more _ B)
  | @control rs l₀ l₁ q B' w₀ a b c d e f g i =>
    exact .control (l₀ := l₀) (l₁ := l₁ ++ es) (q := q) (by rw [h1]; exact a) (by rw [h2, b]; simp)
      (by rw [handledIn_append, c, h3]; rfl) d e f g (by rw [h4, h5, arrivedOn_append]; exact i.more _ B)
  | @shell l₀ l₁ q r B' w₀ a b c d e f g i j =>
    exact .shell (l₀ := l₀) (l₁ := l₁ ++ es) (q := q) (by rw [h1]; exact a) (by rw [h2, b]; simp)
      (by rw [handledIn_append, c, h3]; rfl) d e f g i (by rw [h4, h5, arrivedOn_append]; exact j.more _ B)

theorem AInv.same {st : Start σ} {s s' : Main σ} (h : AInv env I st s) (h1 : s'.pc = s.pc) (h2 : s'.log = s.log)
    (h4 : s'.c.w = s.c.w) (h5 : s'.c.prog = s.c.prog) : AInv env I st s' :=
  h.arrive [] [] h1 (by rw [h2, List.append_nil]) rfl (by rw [h4]; simp [arrivedOn]) h5

/-- The handling of a message ends. -/
theorem AInv.ended {st : Start σ} {s : Main σ} (h : AInv env I st s) (hr : Reach env I st s) (c : Chan)
    (hp : (c = .control ∧ ∃ rs, s.pc = .control rs) ∨ (c = .shell ∧ s.pc = .shell)) (r : Res Unit)
    (hd : s.c.prog c = .done r) :
    ∃ l₀ q l₁ w' A B, s.log = l₀ ++ .act (.took c q) :: l₁ ∧ handledIn l₁ = [] ∧ HandledAlone env I st l₀ c q l₁ r w' ∧
      s.c.w = w'.more A B ∧
      (r = .ok () → Serial env I st (handledIn s.log) (arrivedOn .shell s.log) s.c.w) := by
  have hev := events_reach hr
  have hqq := (qinv_reach hr).shell
  rcases hp with ⟨rfl, hp⟩ | ⟨rfl, hp⟩
  · cases h with
    | idle ha _ => obtain ⟨rs, hp⟩ := hp; exact absurd hp (ha.1 rs)
    | shell hp' => rw [hp'] at hp; obtain ⟨rs, hp⟩ := hp; cases hp
    | @control rs l₀ l₁ q B w₀ a b c d e f g i =>
      rw [hd] at i
      obtain ⟨A₁, A₂, B₁, B₂, w₁, hA, hB, h2, h3⟩ := ser_dispatch I q .control _ _ _ _ _ i
      have h4 := h3 _ rfl [] (.inl rfl)
      simp only [List.append_nil, World.more_nil] at h4
      have hout : w₁.out = eventsIn (l₀ ++ l₁) := by
        have : s.c.w.out = w₁.out := by rw [h2]; rfl
        rw [← this, ← hev, b, eventsIn_append, eventsIn_append]; rfl
      have hrest : w₀.shellQ ++ A₁ = takenFrom .shell l₁ ++ w₁.shellQ := by
        have hsq : s.c.w.shellQ = w₁.shellQ ++ A₂ := by rw [h2]; rfl
        rw [b, takenFrom_append, arrivedOn_append, ← f, hsq] at hqq
        simp only [takenFrom, arrivedOn, hA, List.append_assoc, List.append_cancel_left_eq, reduceCtorEq, if_false] at hqq
        exact (List.append_cancel_right (by simpa only [List.append_assoc] using hqq)).symm
      refine ⟨l₀, q, l₁, w₁, A₂, B₂, b, c, ⟨arrivedOn .shell l₀ ++ A₁, w₀.more A₁ B₁, w₀.shellQ ++ A₁, d.more A₁ B₁,
        ⟨A₂, by rw [arrivedOn_append, hA, List.append_assoc]⟩, g, e, by simp [World.more], ?_, hout, hrest⟩, h2, ?_⟩
      · rw [← h4]; rfl
      · rintro rfl
        rw [b, handledIn_append, arrivedOn_append, h2]
        simp only [handledIn, arrivedOn, c, hA]
        rw [← List.append_assoc]
        exact ((d.more A₁ B₁).control q g h4).more A₂ B₂
  · cases h with
    | idle ha _ => exact absurd hp ha.2
    | control hp' => rw [hp'] at hp; cases hp
    | @shell l₀ l₁ q r' B w₀ a b c d e f g i j =>
      rw [hd] at j
      obtain ⟨A₁, A₂, B₁, B₂, w₁, hA, hB, h2, h3⟩ := ser_dispatch I q .shell _ _ _ _ _ j
      have h4 := h3 _ rfl [] (.inl rfl)
      simp only [List.append_nil, World.more_nil] at h4
      have hout : w₁.out = eventsIn (l₀ ++ l₁) := by
        have : s.c.w.out = w₁.out := by rw [h2]; rfl
        rw [← this, ← hev, b, eventsIn_append, eventsIn_append]; rfl
      have hrest : r' ++ A₁ = takenFrom .shell l₁ ++ w₁.shellQ := by
        have hsq : s.c.w.shellQ = w₁.shellQ ++ A₂ := by rw [h2]; rfl
        rw [b, takenFrom_append, arrivedOn_append, ← f, hsq, i] at hqq
        simp only [takenFrom, arrivedOn, hA, List.append_assoc, List.append_cancel_left_eq, if_true, List.cons_append,
          List.cons.injEq, true_and] at hqq
        exact (List.append_cancel_right (by simpa only [List.append_assoc] using hqq)).symm
      have h5 : (dispatch env I q .shell).run { w₀.more A₁ B₁ with shellQ := r' ++ A₁ } = (r, w₁) := by rw [← h4]; rfl
      refine ⟨l₀, q, l₁, w₁, A₂, B₂, b, c, ⟨arrivedOn .shell l₀ ++ A₁, w₀.more A₁ B₁, r' ++ A₁, d.more A₁ B₁,
        ⟨A₂, by rw [arrivedOn_append, hA, List.append_assoc]⟩, g, e, by simp [World.more, i], h5, hout, hrest⟩, h2, ?_⟩
      rintro rfl
      rw [b, handledIn_append, arrivedOn_append, h2]
      simp only [handledIn, arrivedOn, c, hA]
      rw [← List.append_assoc]
      exact ((d.more A₁ B₁).shell q (r' ++ A₁) g (by simp [World.more, i]) h5).more A₂ B₂

theorem ainv_reach {st : Start σ} {s : Main σ} (h : Reach env I st s) : AInv env I st s := by
  induction h with
  | start => exact .idle (by simp [init, Idle]) .start
  | step hr hs ih =>
    cases hs with
    | arriveShell _ q => exact ih.arrive [.arrived .shell q] [] rfl rfl rfl (by simp [World.more, arrivedOn]) rfl
    | arriveControl _ q => exact ih.arrive [.arrived .control q] [] rfl rfl rfl (by simp [arrivedOn]) rfl
    | arriveStdin _ q => exact ih.arrive [] [q] rfl (by simp) rfl (by simp [World.more, arrivedOn]) rfl
    | ping _ i m => exact ih.same rfl rfl rfl rfl
    | publisher _ a _ => exact ih.same rfl rfl rfl rfl
    | heartbeat _ a _ => exact ih.same rfl rfl rfl rfl
    | enter _ hp _ =>
      exact ih.move (by simp [hp, Idle]) (by simp [Idle]) (by simp [handledIn_append, handledIn])
        (by simp [arrivedOn_append, arrivedOn]) rfl
    | takeControl _ rs q r hp hq =>
      have hns := fun h => ((stopinv_reach hr).pc h).2.2.1 _ _ hp
      cases ih with
      | control hp' => rw [hp'] at hp; cases hp
      | shell hp' => rw [hp'] at hp; cases hp
      | idle _ h =>
        refine .control (q := q) (l₁ := []) (B := []) rfl rfl rfl h (events_reach hr).symm (qinv_reach hr).shell hns ?_
        simp only [setProg, if_true]
        exact .refl
    | workControl _ rs p w' keep hp hs _ =>
      cases ih with
      | idle ha _ => exact absurd hp (ha.1 rs)
      | shell hp' => rw [hp'] at hp; cases hp
      | @control rs l₀ l₁ q B' w₀ a b c d e f g i =>
        refine .control (l₀ := l₀) (l₁ := l₁ ++ _) (B := B') (q := q) a (by simp only [Main.work, b]; simp; rfl)
          (by rw [handledIn_append, c, handledIn_entries]; rfl) d e f g ?_
        rw [arrivedOn_append, arrivedOn_acts, List.append_nil]
        simpa [Main.work, setProg] using i.step hs
    | doneControl _ rs hp hd =>
      obtain ⟨_, _, _, _, _, _, _, _, _, _, h⟩ := ih.ended hr .control (.inl ⟨rfl, rs, hp⟩) _ hd
      exact .idle (by simp [Idle]) (h rfl)
    | takeShell _ q r hp hq =>
      have hns := fun h => ((stopinv_reach hr).pc h).2.2.2 hp
      cases ih with
      | control hp' => rw [hp'] at hp; cases hp
      | shell hp' => rw [hp'] at hp; cases hp
      | idle _ h =>
        refine .shell (q := q) (l₁ := []) (B := []) rfl rfl rfl h (events_reach hr).symm (qinv_reach hr).shell hns hq ?_
        simp only [setProg, if_true]
        exact .refl
    | workShell _ p w' keep hp hs _ =>
      cases ih with
      | idle ha _ => exact absurd hp ha.2
      | control hp' => rw [hp'] at hp; cases hp
      | @shell l₀ l₁ q r' B' w₀ a b c d e f g i j =>
        refine .shell (l₀ := l₀) (l₁ := l₁ ++ _) (B := B') (q := q) a (by simp only [Main.work, b]; simp; rfl)
          (by rw [handledIn_append, c, handledIn_entries]; rfl) d e f g i ?_
        rw [arrivedOn_append, arrivedOn_acts, List.append_nil]
        simpa [Main.work, setProg] using j.step hs
    | doneShell _ hp hd =>
      obtain ⟨_, _, _, _, _, _, _, _, _, _, h⟩ := ih.ended hr .shell (.inr ⟨rfl, hp⟩) _ hd
      exact .idle (by simp [Idle]) (h rfl)
    | sampleControl _ rc hp _ => exact ih.move (by simp [hp, Idle]) (by simp [Idle]) rfl rfl rfl
    | sampleShell _ rc rs hp _ _ => exact ih.move (by simp [hp, Idle]) (by simp [Idle]) rfl rfl rfl
    | nothing _ hp _ => exact ih.move (by simp [hp, Idle]) (by simp [Idle]) rfl rfl rfl
    | noControl _ rs hp => exact ih.move (by simp [hp, Idle]) (by simp [Idle]) rfl rfl rfl
    | shellNext _ hp _ => exact ih.move (by simp [hp, Idle]) (by simp [Idle]) rfl rfl rfl
    | noShell _ rs hp _ => exact ih.move (by simp [hp, Idle]) (by simp [Idle]) rfl rfl rfl
    | leave _ hp _ => exact ih.move (by simp [hp, Idle]) (by simp [Idle]) rfl rfl rfl
    | stopPub _ hp => exact ih.move (by simp [hp, Idle]) (by simp [Idle]) rfl rfl rfl
    | waitPub _ hp _ => exact ih.move (by simp [hp, Idle]) (by simp [Idle]) rfl rfl rfl
    | stopHb _ hp => exact ih.move (by simp [hp, Idle]) (by simp [Idle]) rfl rfl rfl
    | waitHb _ hp _ => exact ih.move (by simp [hp, Idle]) (by simp [Idle]) rfl rfl rfl

/-! ## Every message that was handled -/

/-- Each message handled was handled alone. -/
def Past (env : Env) (I : Interp σ) (st : Start σ) (s : Main σ) : Prop :=
  ∀ l₀ c q l, s.log = l₀ ++ .act (.took c q) :: l → Spec.Idle s ∨ handledIn l ≠ [] →
    ∃ l₁ l₂ w', l = l₁ ++ l₂ ∧ handledIn l₁ = [] ∧ (l₂ = [] ∨ ∃ c' q' l₃, l₂ = .act (.took c' q') :: l₃) ∧
      HandledAlone env I st l₀ c q l₁ (.ok ()) w'

theorem alone_more {st : Start σ} {l₀ l₁ es : List SEv} {c : Chan} {q : Multipart} {r : Res Unit} {w' : World σ}
    (h : HandledAlone env I st l₀ c q l₁ r w') (h1 : eventsIn es = []) (h2 : takenFrom .shell es = []) :
    HandledAlone env I st l₀ c q (l₁ ++ es) r w' := by
  obtain ⟨as, w, rest, a, ⟨x, b⟩, c, d, e, f, g, i⟩ := h
  refine ⟨as, w, rest, a, ⟨x ++ arrivedOn .shell es, ?_⟩, c, d, e, f, ?_, ?_⟩
  · rw [← List.append_assoc, b, ← arrivedOn_append, List.append_assoc]
  · rw [← List.append_assoc, eventsIn_append, h1, List.append_nil]; exact g
  · rw [takenFrom_append, h2, List.append_nil]; exact i

/-- Nothing is done. -/
theorem Past.quiet {st : Start σ} {s s' : Main σ} (h : Past env I st s) (es : List SEv) (h1 : s'.log = s.log ++ es)
    (h2 : handledIn es = []) (h3 : eventsIn es = []) (h4 : takenFrom .shell es = []) (h5 : Spec.Idle s' → Spec.Idle s) :
    Past env I st s' := by
  intro l₀ c q l heq hi
  rw [h1] at heq
  obtain ⟨l', hl, rfl⟩ := took_left heq h2
  rw [handledIn_append, h2, List.append_nil] at hi
  obtain ⟨l₁, l₂, w', rfl, a, b, d⟩ := h l₀ c q l' hl (hi.imp_left h5)
  rcases b with rfl | ⟨c', q', l₃, rfl⟩
  · exact ⟨l₁ ++ es, [], w', by simp, by rw [handledIn_append, a, h2]; rfl, .inl rfl, alone_more d h3 h4⟩
  · exact ⟨l₁, _, w', by rw [List.append_assoc]; rfl, a, .inr ⟨c', q', l₃ ++ es, rfl⟩, d⟩

theorem Past.same {st : Start σ} {s s' : Main σ} (h : Past env I st s) (h1 : s'.log = s.log) (h5 : Spec.Idle s' → Spec.Idle s) :
    Past env I st s' := h.quiet [] (by rw [h1, List.append_nil]) rfl rfl rfl h5

/-- A handler works. -/
theorem Past.busy {st : Start σ} {s s' : Main σ} (h : Past env I st s) (es : List SEv) (h1 : s'.log = s.log ++ es)
    (h2 : handledIn es = []) (h5 : ¬ Spec.Idle s') : Past env I st s' := by
  intro l₀ c q l heq hi
  rw [h1] at heq
  obtain ⟨l', hl, rfl⟩ := took_left heq h2
  rw [handledIn_append, h2, List.append_nil] at hi
  have hi := hi.resolve_left h5
  obtain ⟨l₁, l₂, w', rfl, a, b, d⟩ := h l₀ c q l' hl (.inr hi)
  rcases b with rfl | ⟨c', q', l₃, rfl⟩
  · rw [List.append_nil] at hi; exact absurd a hi
  · exact ⟨l₁, _, w', by rw [List.append_assoc]; rfl, a, .inr ⟨c', q', l₃ ++ es, rfl⟩, d⟩

/-- A message is received. -/
theorem Past.take {st : Start σ} {s s' : Main σ} (h : Past env I st s) (c₀ : Chan) (q₀ : Multipart)
    (h1 : s'.log = s.log ++ [.act (.took c₀ q₀)]) (h2 : Spec.Idle s) (h5 : ¬ Spec.Idle s') : Past env I st s' := by
  intro l₀ c q l heq hi
  rw [h1] at heq
  rcases List.append_eq_append_iff.1 heq with ⟨x, h3, h4⟩ | ⟨x, h3, h4⟩
  · cases x with
    | nil =>
      simp at h4
      obtain ⟨_, rfl⟩ := h4
      exact absurd rfl (hi.resolve_left h5)
    | cons y x => simp at h4
  · cases x with
    | nil =>
      simp at h4
      obtain ⟨_, rfl⟩ := h4
      exact absurd rfl (hi.resolve_left h5)
    | cons y x =>
      simp only [List.cons_append, List.cons.injEq] at h4
      obtain ⟨rfl, rfl⟩ := h4
      obtain ⟨l₁, l₂, w', rfl, a, b, d⟩ := h l₀ c q x h3 (.inl h2)
      rcases b with rfl | ⟨c', q', l₃, rfl⟩
      · exact ⟨l₁, _, w', by simp, a, .inr ⟨c₀, q₀, [], rfl⟩, d⟩
      · exact ⟨l₁, _, w', by rw [List.append_assoc]; rfl, a, .inr ⟨c', q', l₃ ++ _, rfl⟩, d⟩

/-- The handling of a message ends. -/
theorem Past.ended {st : Start σ} {s s' : Main σ} (h : Past env I st s) (hr : Reach env I st s) (c : Chan)
    (hp : (c = .control ∧ ∃ rs, s.pc = .control rs) ∨ (c = .shell ∧ s.pc = .shell))
    (hd : s.c.prog c = .done (.ok ())) (h1 : s'.log = s.log) : Past env I st s' := by
  intro l₀ c' q l heq hi
  rw [h1] at heq
  by_cases hl : handledIn l = []
  · obtain ⟨m₀, q', m, w', A, B, a, b, d, _⟩ := (ainv_reach hr).ended hr c hp _ hd
    obtain ⟨rfl, rfl, rfl, rfl⟩ := last_handled (heq.symm.trans a) hl b
    exact ⟨l, [], w', by simp, hl, .inl rfl, d⟩
  · exact h l₀ c' q l heq (.inr hl)

theorem past_reach {st : Start σ} {s : Main σ} (h : Reach env I st s) : Past env I st s := by
  induction h with
  | start => intro l₀ c q l h; simp [init] at h
  | step hr hs ih =>
    cases hs with
    | arriveShell _ q => exact ih.quiet [.arrived .shell q] rfl rfl rfl rfl id
    | arriveControl _ q => exact ih.quiet [.arrived .control q] rfl rfl rfl rfl id
    | arriveStdin _ q => exact ih.same rfl id
    | ping _ i m => exact ih.same rfl id
    | publisher _ a _ => exact ih.same rfl id
    | heartbeat _ a _ => exact ih.same rfl id
    | enter _ hp _ => exact ih.quiet [.poll] rfl rfl rfl rfl fun _ => by simp [hp, Idle]
    | takeControl _ rs q r hp hq => exact ih.take .control q rfl (by simp [hp, Idle]) (by simp [Idle])
    | workControl _ rs p w' keep hp hs _ =>
      exact ih.busy _ rfl (handledIn_entries _ _ _) (by simp [Idle, Main.work, hp])
    | doneControl _ rs hp hd => exact ih.ended hr .control (.inl ⟨rfl, rs, hp⟩) hd rfl
    | takeShell _ q r hp hq => exact ih.take .shell q rfl (by simp [hp, Idle]) (by simp [Idle])
    | workShell _ p w' keep hp hs _ =>
      exact ih.busy _ rfl (handledIn_entries _ _ _) (by simp [Idle, Main.work, hp])
    | doneShell _ hp hd => exact ih.ended hr .shell (.inr ⟨rfl, hp⟩) hd rfl
    | sampleControl _ rc hp _ => exact ih.same rfl fun _ => by simp [hp, Idle]
    | sampleShell _ rc rs hp _ _ => exact ih.same rfl fun _ => by simp [hp, Idle]
    | nothing _ hp _ => exact ih.same rfl fun _ => by simp [hp, Idle]
    | noControl _ rs hp => exact ih.same rfl fun _ => by simp [hp, Idle]
    | shellNext _ hp _ => exact ih.same rfl fun _ => by simp [hp, Idle]
    | noShell _ rs hp _ => exact ih.same rfl fun _ => by simp [hp, Idle]
    | leave _ hp _ => exact ih.same rfl fun _ => by simp [hp, Idle]
    | stopPub _ hp => exact ih.same rfl fun _ => by simp [hp, Idle]
    | waitPub _ hp _ => exact ih.same rfl fun _ => by simp [hp, Idle]
    | stopHb _ hp => exact ih.same rfl fun _ => by simp [hp, Idle]
    | waitHb _ hp _ => exact ih.same rfl fun _ => by simp [hp, Idle]

/-- Only while a message is handled are others taken from the queue. -/
theorem drained_reach {st : Start σ} {s : Main σ} (h : Reach env I st s) :
    ∀ l₀ c q l, s.log = l₀ ++ .act (.drained c q) :: l → handledIn l₀ ≠ [] := by
  have mono : ∀ {s : Main σ} {es l₀ l : List SEv} {c : Chan} {q : Multipart},
      (∀ l₀ c q l, s.log = l₀ ++ .act (.drained c q) :: l → handledIn l₀ ≠ []) →
      (handledIn s.log ≠ [] ∨ ∀ c q, SEv.act (.drained c q) ∉ es) → s.log ++ es = l₀ ++ .act (.drained c q) :: l →
      handledIn l₀ ≠ [] := by
    intro s es l₀ l c q h he heq
    rcases List.append_eq_append_iff.1 heq with ⟨x, h1, h2⟩ | ⟨x, h1, h2⟩
    · rcases he with he | he
      · rw [h1, handledIn_append]; simp [he]
      · exact absurd (by rw [h2]; simp) (he c q)
    · cases x with
      | nil =>
        rcases he with he | he
        · rw [List.append_nil] at h1; rw [← h1]; exact he
        · simp at h2; exact absurd (by rw [← h2]; simp) (he c q)
      | cons y x =>
        simp only [List.cons_append, List.cons.injEq] at h2
        obtain ⟨rfl, rfl⟩ := h2
        exact h _ _ _ _ h1
  induction h with
  | start => intro l₀ c q l h; simp [init] at h
  | step hr hs ih =>
    intro l₀ c q l heq
    have hbusy := ainv_reach hr
    cases hs with
    | arriveShell _ q => exact mono ih (.inr (by simp)) heq
    | arriveControl _ q => exact mono ih (.inr (by simp)) heq
    | enter _ hp _ => exact mono ih (.inr (by simp)) heq
    | takeControl _ rs q r hp hq => exact mono ih (.inr (by simp)) heq
    | takeShell _ q r hp hq => exact mono ih (.inr (by simp)) heq
    | workControl _ rs p w' keep hp hs _ =>
      refine mono ih (.inl ?_) heq
      cases hbusy with
      | idle ha _ => exact absurd hp (ha.1 rs)
      | shell hp' => rw [hp'] at hp; cases hp
      | control a b => rw [b, handledIn_append]; simp [handledIn]
    | workShell _ p w' keep hp hs _ =>
      refine mono ih (.inl ?_) heq
      cases hbusy with
      | idle ha _ => exact absurd hp ha.2
      | control hp' => rw [hp'] at hp; cases hp
      | shell a b => rw [b, handledIn_append]; simp [handledIn]
    | _ => exact ih _ _ _ _ heq

end Main

end Xeus
