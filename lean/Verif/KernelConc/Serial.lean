import Verif.KernelConc.Model

/-!
# Handling while messages arrive: a proof rule (no property statements here)

A program that runs while messages arrive on the shell and stdin sockets ends as it would have done alone, had some of them
been there from the beginning.
-/

namespace Xeus

open K

variable {σ α β : Type}

/-- Messages arrive on the shell and stdin sockets. -/
def World.more (w : World σ) (A B : List Multipart) : World σ :=
  { w with shellQ := w.shellQ ++ A, stdinQ := w.stdinQ ++ B }

@[simp] theorem World.more_nil (w : World σ) : w.more [] [] = w := by simp [World.more]

@[simp] theorem World.more_more (w : World σ) (A B A' B' : List Multipart) :
    (w.more A B).more A' B' = w.more (A ++ A') (B ++ B') := by simp [World.more]

/-! ## Programs that do not look at the shell socket -/

/-- The access does not depend on the messages waiting on the shell socket and leaves them alone; more messages on the stdin
socket make no difference unless it waits for one. -/
structure BlindAct (f : World σ → Res β × World σ) : Prop where
  same : ∀ w, (f w).2.shellQ = w.shellQ
  more : ∀ w A B, (B = [] ∨ (f w).1 ≠ .hang) → f (w.more A B) = ((f w).1, (f w).2.more A B)

/-- All accesses of the program are like that. -/
def Blind : K (World σ) α → Prop
  | .done _ => True
  | .act f k => BlindAct f ∧ ∀ r, Blind (k r)

theorem Blind.bind {m : K (World σ) α} {g : α → K (World σ) β} (h : Blind m) (hg : ∀ a, Blind (g a)) : Blind (m >>= g) := by
  show Blind (m.bind g)
  induction m with
  | done r => cases r with
    | ok a => exact hg a
    | _ => trivial
  | act f k ih => exact ⟨h.1, fun r => ih r (h.2 r)⟩

theorem Blind.attempt {m : K (World σ) α} (h : Blind m) : Blind m.attempt := by
  induction m with
  | done r => cases r <;> trivial
  | act f k ih => exact ⟨h.1, fun r => ih r (h.2 r)⟩

theorem Blind.pure (a : α) : Blind (Pure.pure a : K (World σ) α) := trivial
theorem Blind.ofRes (r : Res α) : Blind (K.ofRes r : K (World σ) α) := trivial
theorem Blind.throw (e : Exc) : Blind (K.throw e : K (World σ) α) := trivial

theorem Blind.lift {f : World σ → Res α × World σ} (h : BlindAct f) : Blind (K.lift f) :=
  ⟨h, fun r => by cases r <;> trivial⟩

theorem Blind.readR {f : World σ → Res α} (h : ∀ w A B, f (w.more A B) = f w) : Blind (K.readR f) :=
  Blind.lift ⟨fun _ => rfl, fun w A B _ => by simp only [h]⟩

theorem Blind.read {f : World σ → α} (h : ∀ w A B, f (w.more A B) = f w) : Blind (K.read f) :=
  Blind.lift ⟨fun _ => rfl, fun w A B _ => by simp only [h]⟩

theorem Blind.modify {f : World σ → World σ} (h1 : ∀ w, (f w).shellQ = w.shellQ) (h : ∀ w A B, f (w.more A B) = (f w).more A B) :
    Blind (K.modify f) :=
  Blind.lift ⟨h1, fun w A B _ => by simp only [h]⟩

theorem Blind.catchStd {m : K (World σ) α} {h : Exc → K (World σ) α} (hm : Blind m) (hh : ∀ e, Blind (h e)) :
    Blind (K.catchStd m h) := by
  refine hm.attempt.bind fun r => ?_
  cases r with
  | ok a => trivial
  | error e => simp only; split <;> first | exact hh e | trivial

theorem Blind.run {m : K (World σ) α} (h : Blind m) (w : World σ) (A B : List Multipart) (hB : B = [] ∨ (m.run w).1 ≠ .hang) :
    m.run (w.more A B) = ((m.run w).1, (m.run w).2.more A B) := by
  induction m generalizing w with
  | done r => rfl
  | act f k ih =>
    have hf : B = [] ∨ (f w).1 ≠ .hang := by
      refine hB.imp id fun h h' => h ?_
      simp only [K.run]
      rcases hx : f w with ⟨x, w'⟩
      rw [hx] at h'
      cases h'
      rfl
    have := h.1.more w A B hf
    simp only [K.run] at hB ⊢
    rw [this]
    rcases hx : f w with ⟨x, w'⟩
    rw [hx] at hB
    cases x with
    | ok b => exact ih _ (h.2 _) _ hB
    | exc e => exact ih _ (h.2 _) _ hB
    | ub s => rfl
    | hang => rfl

/-! ## Programs that run while messages arrive -/

/-- Started as `p` in `w` the program has come to `p'` in `w'`; meanwhile `A` arrived on the shell and `B` on the stdin
socket. -/
inductive Walk (p : K (World σ) α) (w : World σ) : List Multipart → List Multipart → K (World σ) α → World σ → Prop
  | refl : Walk p w [] [] p w
  | more {A B p' w'} (A' B') : Walk p w A B p' w' → Walk p w (A ++ A') (B ++ B') p' (w'.more A' B')
  | step {A B p' w' p'' w''} : Walk p w A B p' w' → p'.step w' = some (p'', w'') → Walk p w A B p'' w''

theorem Walk.prepend {p p' : K (World σ) α} {w w' : World σ} {A₀ B₀ A B : List Multipart} (h : Walk p (w.more A₀ B₀) A B p' w') :
    Walk p w (A₀ ++ A) (B₀ ++ B) p' w' := by
  induction h with
  | refl =>
    have := Walk.refl (p := p) (w := w) |>.more A₀ B₀
    simpa using this
  | more A' B' _ ih =>
    have := ih.more A' B'
    rwa [List.append_assoc, List.append_assoc] at this
  | step _ hs ih => exact ih.step hs

theorem Walk.head {p p' : K (World σ) α} {w w' : World σ} {A B : List Multipart} (h : Walk p w A B p' w') :
    (p' = p ∧ w' = w.more A B) ∨
    ∃ A₀ B₀ A₁ B₁ p₁ w₁, A = A₀ ++ A₁ ∧ B = B₀ ++ B₁ ∧ p.step (w.more A₀ B₀) = some (p₁, w₁) ∧ Walk p₁ w₁ A₁ B₁ p' w' := by
  induction h with
  | refl => exact .inl ⟨rfl, by simp⟩
  | more A' B' _ ih =>
    rcases ih with ⟨rfl, rfl⟩ | ⟨A₀, B₀, A₁, B₁, p₁, w₁, rfl, rfl, h3, h4⟩
    · exact .inl ⟨rfl, by simp⟩
    · exact .inr ⟨A₀, B₀, A₁ ++ A', B₁ ++ B', p₁, w₁, by simp, by simp, h3, h4.more A' B'⟩
  | @step A B p' w' p'' w'' _ hs ih =>
    rcases ih with ⟨rfl, rfl⟩ | ⟨A₀, B₀, A₁, B₁, p₁, w₁, h1, h2, h3, h4⟩
    · exact .inr ⟨A, B, [], [], p'', w'', by simp, by simp, hs, .refl⟩
    · exact .inr ⟨A₀, B₀, A₁, B₁, p₁, w₁, h1, h2, h3, h4.step hs⟩

theorem Walk.of_done {r : Res α} {p' : K (World σ) α} {w w' : World σ} {A B : List Multipart} (h : Walk (.done r) w A B p' w') :
    p' = .done r ∧ w' = w.more A B := by
  rcases h.head with h | ⟨_, _, _, _, _, _, _, _, h, _⟩
  · exact h
  · cases h

theorem Walk.of_act {γ : Type} {f : World σ → Res γ × World σ} {k : Except Exc γ → K (World σ) α} {r : Res α} {w w' : World σ}
    {A B : List Multipart} (h : Walk (.act f k) w A B (.done r) w') :
    ∃ A₀ B₀ A₁ B₁ w₁, A = A₀ ++ A₁ ∧ B = B₀ ++ B₁ ∧
      ((∃ b, f (w.more A₀ B₀) = (.ok b, w₁) ∧ Walk (k (.ok b)) w₁ A₁ B₁ (.done r) w') ∨
       (∃ e, f (w.more A₀ B₀) = (.exc e, w₁) ∧ Walk (k (.error e)) w₁ A₁ B₁ (.done r) w') ∨
       (∃ s, f (w.more A₀ B₀) = (.ub s, w₁) ∧ r = .ub s ∧ w' = w₁.more A₁ B₁) ∨
       (f (w.more A₀ B₀) = (.hang, w₁) ∧ r = .hang ∧ w' = w₁.more A₁ B₁)) := by
  rcases h.head with ⟨h, _⟩ | ⟨A₀, B₀, A₁, B₁, p₁, w₁, h1, h2, h3, h4⟩
  · cases h
  · refine ⟨A₀, B₀, A₁, B₁, w₁, h1, h2, ?_⟩
    simp only [K.step, Option.some.injEq] at h3
    rcases hx : f (w.more A₀ B₀) with ⟨x, w''⟩
    rw [hx] at h3
    cases x with
    | ok b => simp only [Prod.mk.injEq] at h3; obtain ⟨rfl, rfl⟩ := h3; exact .inl ⟨b, rfl, h4⟩
    | exc e => simp only [Prod.mk.injEq] at h3; obtain ⟨rfl, rfl⟩ := h3; exact .inr (.inl ⟨e, rfl, h4⟩)
    | ub s =>
      simp only [Prod.mk.injEq] at h3
      obtain ⟨rfl, rfl⟩ := h3
      obtain ⟨h5, h6⟩ := h4.of_done
      cases h5
      exact .inr (.inr (.inl ⟨s, rfl, rfl, h6⟩))
    | hang =>
      simp only [Prod.mk.injEq] at h3
      obtain ⟨rfl, rfl⟩ := h3
      obtain ⟨h5, h6⟩ := h4.of_done
      cases h5
      exact .inr (.inr (.inr ⟨rfl, rfl, h6⟩))

theorem Walk.glue {p p₁ p' : K (World σ) α} {w w₁ x : World σ} {A₀ B₀ A₁ B₁ : List Multipart}
    (hs : p.step (w.more A₀ B₀) = some (p₁, w₁)) (hw : Walk p₁ w₁ A₁ B₁ p' x) : Walk p w (A₀ ++ A₁) (B₀ ++ B₁) p' x := by
  induction hw with
  | refl => simpa using ((Walk.refl (p := p) (w := w)).more A₀ B₀).step (by simpa using hs)
  | more A' B' _ ih =>
    have := ih.more A' B'
    rwa [List.append_assoc, List.append_assoc] at this
  | step _ hs ih => exact ih.step hs

theorem Walk.done (r : Res α) (w : World σ) (A B : List Multipart) : Walk (.done r) w A B (.done r) (w.more A B) := by
  simpa using (Walk.refl (p := K.done r) (w := w)).more A B

/-- The outcome is not a value, and the same for programs of every type. -/
inductive Fails : Res α → Res β → Prop
  | exc (e : Exc) : Fails (.exc e) (.exc e)
  | ub (s : String) : Fails (.ub s) (.ub s)
  | hang : Fails .hang .hang

theorem Walk.of_bind {m : K (World σ) α} {g : α → K (World σ) β} {r : Res β} {w w' : World σ} {A B : List Multipart}
    (h : Walk (m >>= g) w A B (.done r) w') :
    (∃ A₀ B₀ A₁ B₁ a x, A = A₀ ++ A₁ ∧ B = B₀ ++ B₁ ∧ Walk m w A₀ B₀ (.done (.ok a)) x ∧ Walk (g a) x A₁ B₁ (.done r) w') ∨
    (∃ q, Fails q r ∧ Walk m w A B (.done q) w') := by
  change Walk (m.bind g) w A B (.done r) w' at h
  induction m generalizing w A B with
  | done q =>
    cases q with
    | ok a => exact .inl ⟨[], [], A, B, a, w, rfl, rfl, .refl, h⟩
    | exc e =>
      obtain ⟨h1, rfl⟩ := Walk.of_done h
      cases h1
      exact .inr ⟨_, .exc e, Walk.done _ _ _ _⟩
    | ub s =>
      obtain ⟨h1, rfl⟩ := Walk.of_done h
      cases h1
      exact .inr ⟨_, .ub s, Walk.done _ _ _ _⟩
    | hang =>
      obtain ⟨h1, rfl⟩ := Walk.of_done h
      cases h1
      exact .inr ⟨_, .hang, Walk.done _ _ _ _⟩
  | act f k ih =>
    obtain ⟨A₀, B₀, A₁, B₁, w₁, rfl, rfl, hc⟩ := Walk.of_act h
    rcases hc with ⟨b, hf, h⟩ | ⟨b, hf, h⟩ | ⟨s, hf, rfl, rfl⟩ | ⟨hf, rfl, rfl⟩
    · have hs : (K.act f k).step (w.more A₀ B₀) = some (k (.ok b), w₁) := by simp only [K.step, hf]
      rcases ih _ h with ⟨A₂, B₂, A₃, B₃, a, x, rfl, rfl, h3, h4⟩ | ⟨q, hq, h3⟩
      · exact .inl ⟨A₀ ++ A₂, B₀ ++ B₂, A₃, B₃, a, x, by simp, by simp, .glue hs h3, h4⟩
      · exact .inr ⟨q, hq, .glue hs h3⟩
    · have hs : (K.act f k).step (w.more A₀ B₀) = some (k (.error b), w₁) := by simp only [K.step, hf]
      rcases ih _ h with ⟨A₂, B₂, A₃, B₃, a, x, rfl, rfl, h3, h4⟩ | ⟨q, hq, h3⟩
      · exact .inl ⟨A₀ ++ A₂, B₀ ++ B₂, A₃, B₃, a, x, by simp, by simp, .glue hs h3, h4⟩
      · exact .inr ⟨q, hq, .glue hs h3⟩
    · have hs : (K.act f k).step (w.more A₀ B₀) = some (.done (.ub s), w₁) := by simp only [K.step, hf]
      exact .inr ⟨_, .ub s, .glue hs (Walk.done _ _ _ _)⟩
    · have hs : (K.act f k).step (w.more A₀ B₀) = some (.done .hang, w₁) := by simp only [K.step, hf]
      exact .inr ⟨_, .hang, .glue hs (Walk.done _ _ _ _)⟩

/-- The program, run while `A` and `B` arrive, ends as each of the programs `Q A₁` would have done alone if a part `A₁` of `A`
and a part of `B` had been there from the beginning; unless it waits for ever, more messages on the stdin socket make no
difference. -/
def SerialTo (p : K (World σ) α) (Q : List Multipart → K (World σ) α → Prop) (w : World σ) : Prop :=
  ∀ A B r w', Walk p w A B (.done r) w' → ∃ (A₁ A₂ B₁ B₂ : List Multipart) (w₁ : World σ), A = A₁ ++ A₂ ∧ B = B₁ ++ B₂ ∧
    w' = w₁.more A₂ B₂ ∧ ∀ p', Q A₁ p' → ∀ X, (X = [] ∨ r ≠ .hang) → p'.run (w.more A₁ (B₁ ++ X)) = (r, w₁.more [] X)

/-- As it would have done alone itself. -/
def Serial1 (p : K (World σ) α) (w : World σ) : Prop := SerialTo p (fun _ p' => p' = p) w

def Ser (p : K (World σ) α) : Prop := ∀ w, Serial1 p w

/-- A blind program does not need any of the messages that arrive on the shell socket. -/
theorem Blind.walk {p : K (World σ) α} (hp : Blind p) {w w' : World σ} {A B : List Multipart} {r : Res α}
    (h : Walk p w A B (.done r) w') :
    ∃ (B₁ B₂ : List Multipart) (w₁ : World σ), B = B₁ ++ B₂ ∧ w' = w₁.more A B₂ ∧ w₁.shellQ = w.shellQ ∧
      ∀ X, (X = [] ∨ r ≠ .hang) → p.run (w.more [] (B₁ ++ X)) = (r, w₁.more [] X) := by
  induction p generalizing w A B with
  | done q =>
    obtain ⟨h1, rfl⟩ := h.of_done
    cases h1
    exact ⟨[], B, w, rfl, rfl, rfl, fun X _ => by simp [K.run]⟩
  | act f k ih =>
    obtain ⟨A₀, B₀, A₁, B₁, w₁, rfl, rfl, hc⟩ := h.of_act
    have e0 : f (w.more A₀ B₀) = ((f (w.more [] B₀)).1, (f (w.more [] B₀)).2.more A₀ []) := by
      have := hp.1.more (w.more [] B₀) A₀ [] (.inl rfl)
      simpa using this
    have hsame : (f (w.more [] B₀)).2.shellQ = w.shellQ := by
      have := hp.1.same (w.more [] B₀)
      simpa [World.more] using this
    rcases hx : f (w.more [] B₀) with ⟨x, y⟩
    rw [hx] at e0 hsame
    have e1 : ∀ X, (X = [] ∨ x ≠ .hang) → f (w.more [] (B₀ ++ X)) = (x, y.more [] X) := by
      intro X hne
      have := hp.1.more (w.more [] B₀) [] X (by rw [hx]; exact hne)
      rw [hx] at this
      simpa using this
    rcases hc with ⟨b, hf, h⟩ | ⟨b, hf, h⟩ | ⟨s, hf, rfl, rfl⟩ | ⟨hf, rfl, rfl⟩
    · rw [e0] at hf
      cases hf
      obtain ⟨C₁, C₂, w₂, hB, h1, h2, h3⟩ := ih _ (hp.2 _) h.prepend
      rw [List.nil_append] at hB
      refine ⟨B₀ ++ C₁, C₂, w₂, by simp [hB], by simpa using h1, by rw [h2]; exact hsame, fun X hX => ?_⟩
      rw [List.append_assoc]
      simp only [K.run, e1 (C₁ ++ X) (.inr (by simp))]
      exact h3 X hX
    · rw [e0] at hf
      cases hf
      obtain ⟨C₁, C₂, w₂, hB, h1, h2, h3⟩ := ih _ (hp.2 _) h.prepend
      rw [List.nil_append] at hB
      refine ⟨B₀ ++ C₁, C₂, w₂, by simp [hB], by simpa using h1, by rw [h2]; exact hsame, fun X hX => ?_⟩
      rw [List.append_assoc]
      simp only [K.run, e1 (C₁ ++ X) (.inr (by simp))]
      exact h3 X hX
    · rw [e0] at hf
      cases hf
      refine ⟨B₀, B₁, y, rfl, by simp, hsame, fun X _ => ?_⟩
      simp only [K.run, e1 X (.inr (by simp))]
    · rw [e0] at hf
      cases hf
      refine ⟨B₀, B₁, y, rfl, by simp, hsame, fun X hX => ?_⟩
      simp only [K.run, e1 X (.inl (hX.resolve_right (by simp)))]

theorem Blind.ser {p : K (World σ) α} (hp : Blind p) : Ser p := by
  intro w A B r w' h
  obtain ⟨B₁, B₂, w₁, hB, h1, _, h2⟩ := hp.walk h
  exact ⟨[], A, B₁, B₂, w₁, rfl, hB, h1, fun p' h => by subst h; exact h2⟩

theorem Fails.hang_iff {q : Res α} {r : Res β} (h : Fails q r) : r ≠ .hang ↔ q ≠ .hang := by cases h <;> simp

theorem Fails.andThen {q : Res α} {r : Res β} (h : Fails q r) (g : α → World σ → Res β × World σ) (w : World σ) :
    K.andThen (q, w) g = (r, w) := by cases h <;> rfl

/-- First a blind program. -/
theorem SerialTo.blind_bind {m : K (World σ) α} {g : α → K (World σ) β} {Q : List Multipart → α → K (World σ) β → Prop} {w : World σ}
    (hm : Blind m) (hg : ∀ a w', w'.shellQ = w.shellQ → SerialTo (g a) (fun A => Q A a) w') :
    SerialTo (m >>= g) (fun A p => ∃ g', p = m >>= g' ∧ ∀ a, Q A a (g' a)) w := by
  intro A B r w' h
  rcases h.of_bind with ⟨A₀, B₀, A₁, B₁, a, x, rfl, rfl, h1, h2⟩ | ⟨q, hq, h1⟩
  · obtain ⟨D₁, D₂, x₁, rfl, rfl, hq, hrun⟩ := hm.walk h1
    obtain ⟨C₁, C₂, E₁, E₂, w₁, e1, e2, rfl, h3⟩ := hg a x₁ hq _ _ _ _ h2.prepend
    refine ⟨C₁, C₂, D₁ ++ E₁, E₂, w₁, e1, by simp [e2], rfl, ?_⟩
    rintro p' ⟨g', rfl, hg'⟩ X hX
    rw [K.run_bind]
    have h4 := hm.run (w.more [] (D₁ ++ (E₁ ++ X))) C₁ [] (.inl rfl)
    rw [hrun (E₁ ++ X) (.inr (by simp))] at h4
    have h5 := h3 _ (hg' a) X hX
    simp only [World.more_more, List.nil_append, List.append_nil] at h4 h5
    rw [List.append_assoc, h4, K.andThen_ok, h5]
  · obtain ⟨D₁, D₂, x₁, rfl, rfl, _, hrun⟩ := hm.walk h1
    refine ⟨[], A, D₁, D₂, x₁, rfl, rfl, rfl, ?_⟩
    rintro p' ⟨g', rfl, _⟩ X hX
    rw [K.run_bind, hrun X (hX.imp id hq.hang_iff.1), hq.andThen]

theorem SerialTo.mono {p : K (World σ) α} {Q Q' : List Multipart → K (World σ) α → Prop} {w : World σ} (h : SerialTo p Q w)
    (hQ : ∀ A p', Q' A p' → Q A p') : SerialTo p Q' w := by
  intro A B r w' h1
  obtain ⟨A₁, A₂, B₁, B₂, w₁, h2, h2', h3, h4⟩ := h A B r w' h1
  exact ⟨A₁, A₂, B₁, B₂, w₁, h2, h2', h3, fun p' hp => h4 p' (hQ _ _ hp)⟩

theorem Serial1.blind_bind {m : K (World σ) α} {g : α → K (World σ) β} {w : World σ} (hm : Blind m)
    (hg : ∀ a w', w'.shellQ = w.shellQ → Serial1 (g a) w') : Serial1 (m >>= g) w :=
  (SerialTo.blind_bind (Q := fun _ a p => p = g a) hm hg).mono fun _ _ hp => ⟨g, hp, fun _ => rfl⟩

theorem Ser.blind_bind {m : K (World σ) α} {g : α → K (World σ) β} (hm : Blind m) (hg : ∀ a, Ser (g a)) : Ser (m >>= g) :=
  fun _ => Serial1.blind_bind hm fun a w' _ => hg a w'

/-- Afterwards a blind program. -/
theorem Ser.bind_blind {m : K (World σ) α} {g : α → K (World σ) β} (hm : Ser m) (hg : ∀ a, Blind (g a)) : Ser (m >>= g) := by
  intro w A B r w' h
  rcases h.of_bind with ⟨A₀, B₀, A₁, B₁, a, x, rfl, rfl, h1, h2⟩ | ⟨q, hq, h1⟩
  · obtain ⟨C₁, C₂, D₁, D₂, x₁, rfl, rfl, rfl, hrun⟩ := hm _ _ _ _ _ h1
    obtain ⟨E₁, E₂, w₁, e2, rfl, hq, h3⟩ := (hg a).walk h2.prepend
    refine ⟨C₁, C₂ ++ A₁, D₁ ++ E₁, E₂, w₁, by simp, by simp [e2], rfl, ?_⟩
    rintro p' rfl X hX
    rw [K.run_bind, List.append_assoc, hrun _ rfl (E₁ ++ X) (.inr (by simp)), K.andThen_ok]
    simpa using h3 X hX
  · obtain ⟨C₁, C₂, D₁, D₂, x₁, rfl, rfl, rfl, hrun⟩ := hm _ _ _ _ _ h1
    exact ⟨C₁, C₂, D₁, D₂, x₁, rfl, rfl, rfl, fun p' hp X hX => by
      rw [hp, K.run_bind, hrun _ rfl X (hX.imp id hq.hang_iff.1), hq.andThen]⟩

theorem Walk.of_attempt {m : K (World σ) α} {r : Res (Except Exc α)} {w w' : World σ} {A B : List Multipart}
    (h : Walk m.attempt w A B (.done r) w') :
    ∃ q, Walk m w A B (.done q) w' ∧ (r ≠ .hang → q ≠ .hang) ∧ ∀ s : World σ, captured (q, s) = (r, s) := by
  induction m generalizing w A B with
  | done q =>
    have hw : w' = w.more A B := by cases q <;> exact (Walk.of_done h).2
    refine ⟨q, ?_, ?_, ?_⟩
    · rw [hw]
      exact Walk.done _ _ _ _
    · rintro hr rfl
      exact hr (by have := (Walk.of_done h).1; cases this; rfl)
    · intro s
      cases q <;> (have := (Walk.of_done h).1; cases this; rfl)
  | act f k ih =>
    obtain ⟨A₀, B₀, A₁, B₁, w₁, rfl, rfl, hc⟩ := Walk.of_act h
    rcases hc with ⟨b, hf, h⟩ | ⟨b, hf, h⟩ | ⟨s, hf, rfl, rfl⟩ | ⟨hf, rfl, rfl⟩
    · have hs : (K.act f k).step (w.more A₀ B₀) = some (k (.ok b), w₁) := by simp only [K.step, hf]
      obtain ⟨q, h1, h2, h3⟩ := ih _ h
      exact ⟨q, .glue hs h1, h2, h3⟩
    · have hs : (K.act f k).step (w.more A₀ B₀) = some (k (.error b), w₁) := by simp only [K.step, hf]
      obtain ⟨q, h1, h2, h3⟩ := ih _ h
      exact ⟨q, .glue hs h1, h2, h3⟩
    · have hs : (K.act f k).step (w.more A₀ B₀) = some (.done (.ub s), w₁) := by simp only [K.step, hf]
      exact ⟨.ub s, .glue hs (Walk.done _ _ _ _), by simp, fun _ => rfl⟩
    · have hs : (K.act f k).step (w.more A₀ B₀) = some (.done .hang, w₁) := by simp only [K.step, hf]
      exact ⟨.hang, .glue hs (Walk.done _ _ _ _), by simp, fun _ => rfl⟩

theorem Serial1.attempt {m : K (World σ) α} {w : World σ} (hm : Serial1 m w) : Serial1 m.attempt w := by
  intro A B r w' h
  obtain ⟨q, h1, h2, h3⟩ := h.of_attempt
  obtain ⟨A₁, A₂, B₁, B₂, w₁, rfl, rfl, rfl, h4⟩ := hm _ _ _ _ h1
  exact ⟨A₁, A₂, B₁, B₂, w₁, rfl, rfl, rfl, fun p' hp X hX => by rw [hp, K.run_attempt, h4 _ rfl X (hX.imp id h2), h3]⟩

theorem Ser.attempt {m : K (World σ) α} (hm : Ser m) : Ser m.attempt := fun w => (hm w).attempt

/-! ## The primitive effects -/

section
variable {env : Env}

theorem blind_emit (e : Ev) : Blind (σ := σ) (emit e) := Blind.modify (fun _ => rfl) fun _ _ _ => rfl

theorem blind_logK (e : LogEv) : Blind (σ := σ) (logK env e) := Blind.ofRes _

theorem blind_freshGuid : Blind (σ := σ) (freshGuid env) := Blind.lift ⟨fun _ => rfl, fun _ _ _ _ => rfl⟩

theorem blind_isoNow : Blind (σ := σ) (isoNow env) := Blind.lift ⟨fun _ => rfl, fun _ _ _ _ => rfl⟩

theorem blind_makeHeader (type : Str) : Blind (σ := σ) (makeHeader env type) :=
  blind_freshGuid.bind fun _ => blind_isoNow.bind fun _ => Blind.pure _

theorem blind_parentHeader (c : Chan) : Blind (σ := σ) (parentHeader c) := Blind.read fun _ _ _ => rfl

theorem blind_parentIds (c : Chan) : Blind (σ := σ) (parentIds c) := Blind.read fun _ _ _ => rfl

theorem blind_setParent (ids : List Str) (h : Json) (c : Chan) : Blind (σ := σ) (setParent ids h c) := by
  refine Blind.bind ?_ fun _ => ?_ <;> exact Blind.modify (fun _ => rfl) fun _ _ _ => rfl

theorem blind_publish (type : Str) (md ct : Json) (bufs : List Frame) (c : Chan) :
    Blind (σ := σ) (publishMessage env type md ct bufs c) :=
  (blind_makeHeader _).bind fun _ => (blind_parentHeader _).bind fun _ => (blind_logK _).bind fun _ =>
    (Blind.ofRes _).bind fun _ => blind_emit _

theorem blind_sendReplyTo (ids : List Str) (type : Str) (parent md ct : Json) (c : Chan) :
    Blind (σ := σ) (sendReplyTo env ids type parent md ct c) :=
  (blind_makeHeader _).bind fun _ => (blind_logK _).bind fun _ => (Blind.ofRes _).bind fun _ => blind_emit _

theorem blind_sendReply (type : Str) (md ct : Json) (c : Chan) : Blind (σ := σ) (sendReply env type md ct c) :=
  (blind_parentIds _).bind fun _ => (blind_parentHeader _).bind fun _ => blind_sendReplyTo _ _ _ _ _ _

theorem blind_getMetadata : Blind (σ := σ) (getMetadata env) := blind_isoNow.bind fun _ => Blind.pure _

theorem blind_dispatchStdin (wire : Multipart) : Blind (σ := σ) (dispatchStdin env wire) :=
  Blind.catchStd ((Blind.ofRes _).bind fun _ => (blind_logK _).bind fun _ => (Blind.ofRes _).bind fun _ =>
    Blind.modify (fun _ => rfl) fun _ _ _ => rfl) fun _ => Blind.pure _

theorem blind_recvStdin : Blind (σ := σ) recvStdin := by
  refine Blind.lift ⟨fun w => ?_, fun w A B h => ?_⟩
  · cases h : w.stdinQ <;> rfl
  · rcases hq : w.stdinQ with _ | ⟨f, r⟩
    · simp only [hq, ne_eq, not_true_eq_false, or_false] at h
      subst h
      simp [World.more, hq]
    · simp [World.more, hq]

theorem blind_sendStdin (type : Str) (md ct : Json) : Blind (σ := σ) (sendStdin env type md ct) :=
  (blind_parentIds _).bind fun _ => (blind_makeHeader _).bind fun _ => (blind_parentHeader _).bind fun _ =>
    (blind_logK _).bind fun _ => (Blind.ofRes _).bind fun _ => (blind_emit _).bind fun _ => blind_recvStdin.bind fun _ =>
    blind_dispatchStdin _

theorem blind_blockingInput (prompt : Str) (pwd : Bool) : Blind (σ := σ) (blockingInput env prompt pwd) := by
  refine Blind.bind ?_ fun _ => (blind_sendStdin _ _ _).bind fun _ => Blind.bind ?_ fun _ => Blind.bind ?_ fun _ => Blind.pure _
  · exact Blind.modify (fun _ => rfl) fun _ _ _ => rfl
  · exact Blind.read fun _ _ _ => rfl
  · exact Blind.modify (fun _ => rfl) fun _ _ _ => rfl

theorem blind_onComms (act : CommAct) (f : Comms → Res (α × Comms)) : Blind (σ := σ) (onComms act f) := by
  refine Blind.lift ⟨fun w => ?_, fun w A B h => ?_⟩
  · cases h : f w.comm <;> rfl
  · have e : (w.more A B).comm = w.comm := rfl
    rw [e]
    cases h : f w.comm <;> rfl

theorem blind_publishOp (p : PubOp) : Blind (σ := σ) (publishOp env p) := blind_publish _ _ _ _ _

theorem blind_op (o : Op) : Blind (σ := σ) (o.sem env) := by
  cases o with
  | pub p => exact (blind_publishOp _).bind fun _ => Blind.pure _
  | input p q => exact (blind_blockingInput _ _).bind fun _ => Blind.pure _
  | parentHeader => exact (blind_parentHeader _).bind fun _ => Blind.pure _
  | history q => exact (Blind.readR fun _ _ _ => rfl).bind fun _ => Blind.pure _
  | comm o =>
    refine Blind.bind ?_ fun _ => blind_onComms _ _
    unfold commGuid
    split
    · exact blind_freshGuid
    · exact Blind.pure _
  | commSend k a md d b =>
    exact (Blind.readR fun _ _ _ => rfl).bind fun _ => (blind_publish _ _ _ _ _).bind fun _ => Blind.pure _

theorem blind_exec {Ω : Type} {sem : Ω → K (World σ) Val} (hs : ∀ o, Blind (sem o)) (q : Prog σ Ω α) : Blind (q.exec sem) := by
  induction q with
  | ret a => exact Blind.pure _
  | throw e => exact Blind.throw _
  | ub s => exact Blind.ofRes _
  | hang => exact Blind.ofRes _
  | get k ih => exact (Blind.read fun _ _ _ => rfl).bind fun s => ih s
  | set s k ih =>
    refine Blind.bind ?_ fun _ => ih
    exact Blind.modify (fun _ => rfl) fun _ _ _ => rfl
  | call o k ih => exact (hs o).attempt.bind fun r => ih r

theorem blind_dop (I : Interp σ) (o : DOp) : Blind (o.sem env I) := by
  cases o with
  | base o => exact blind_op o
  | toShell j =>
    exact ((Blind.ofRes _).bind fun _ => ((Blind.ofRes _).bind fun _ => (blind_exec blind_op _).bind fun _ =>
      Blind.ofRes _).bind fun _ => Blind.ofRes _).bind fun _ => Blind.pure _

theorem blind_userCall {Ω : Type} {sem : Ω → K (World σ) Val} (hs : ∀ o, Blind (sem o)) (k : Call) (p : Prog σ Ω α) :
    Blind (userCall sem k p) := by
  refine (blind_emit _).bind fun _ => (blind_exec hs p).attempt.bind fun r => ?_
  cases r with
  | ok a => exact Blind.pure _
  | error e => exact (blind_emit _).bind fun _ => Blind.throw _

/-! ## Handlers -/

theorem blind_runHandler (I : Interp σ) (h : Option Nat) (m : XMessage) : Blind (runHandler env I h m) := by
  cases h with
  | none => exact Blind.pure _
  | some n => exact blind_userCall blind_op _ _

theorem blind_commOpen (I : Interp σ) (m : XMessage) : Blind (commOpen env I m) := by
  refine (blind_onComms _ _).bind fun r => Blind.bind ?_ fun res => (blind_onComms _ _).bind fun _ => ?_
  · refine Blind.attempt ?_
    split
    · exact Blind.throw _
    · exact blind_userCall blind_op _ _
  · split
    · exact Blind.pure _
    · exact Blind.throw _

theorem blind_interpExecute (I : Interp σ) (code : Str) (silent store : Bool) (exprs : Json) (allow : Bool) :
    Blind (interpExecute env I code silent store exprs allow) := by
  refine Blind.bind ?_ fun _ => (Blind.read fun _ _ _ => rfl).bind fun _ => (blind_userCall blind_op _ _).bind fun _ =>
    (Blind.read fun _ _ _ => rfl).bind fun _ => Blind.ofRes _
  unfold announce
  split
  · refine Blind.bind (Blind.lift ⟨fun w => ?_, fun w A B h => ?_⟩) fun _ => (Blind.read fun _ _ _ => rfl).bind fun _ =>
      blind_publishOp _
    · split <;> rfl
    · have e : (w.more A B).count = w.count := rfl
      rw [e]
      cases intAdd w.count 1 <;> rfl
  · exact Blind.pure _

theorem blind_abortRequest (wire : Multipart) : Blind (σ := σ) (abortRequest env wire) := by
  refine (Blind.ofRes _).attempt.bind fun r => ?_
  cases r with
  | error e => simp only; split <;> first | exact Blind.pure _ | exact Blind.throw _
  | ok msg => exact (Blind.ofRes _).bind fun _ => (Blind.ofRes _).bind fun _ => blind_sendReplyTo _ _ _ _ _ _

/-- Every handler but that of `execute_request` is blind. -/
theorem blind_handle (I : Interp σ) {r : Req} (hr : r ≠ .execute) (m : XMessage) (c : Chan) : Blind (handle env I r m c) := by
  cases r with
  | execute => exact absurd rfl hr
  | complete =>
    exact (Blind.ofRes _).bind fun _ => (Blind.ofRes _).bind fun _ => (blind_userCall blind_op _ _).bind fun _ =>
      blind_sendReply _ _ _ _
  | inspect =>
    exact (Blind.ofRes _).bind fun _ => (Blind.ofRes _).bind fun _ => (Blind.ofRes _).bind fun _ =>
      (blind_userCall blind_op _ _).bind fun _ => blind_sendReply _ _ _ _
  | history => exact (Blind.readR fun _ _ _ => rfl).bind fun _ => blind_sendReply _ _ _ _
  | isComplete =>
    exact (Blind.ofRes _).bind fun _ => (blind_userCall blind_op _ _).bind fun _ => blind_sendReply _ _ _ _
  | commInfo => exact (Blind.ofRes _).bind fun _ => (Blind.readR fun _ _ _ => rfl).bind fun _ => blind_sendReply _ _ _ _
  | commOpen => exact blind_commOpen I m
  | commClose =>
    exact (Blind.readR fun _ _ _ => rfl).bind fun _ => (blind_runHandler I _ _).bind fun _ =>
      Blind.modify (fun _ => rfl) fun _ _ _ => rfl
  | commMsg => exact (Blind.readR fun _ _ _ => rfl).bind fun _ => blind_runHandler I _ _
  | kernelInfo =>
    exact (blind_userCall blind_op _ _).bind fun _ => (Blind.ofRes _).bind fun _ => blind_sendReply _ _ _ _
  | shutdown =>
    exact (Blind.ofRes _).bind fun _ => (blind_userCall blind_op _ _).bind fun _ => (blind_emit _).bind fun _ =>
      (blind_publish _ _ _ _ _).bind fun _ => blind_sendReply _ _ _ _
  | interrupt => exact (blind_publish _ _ _ _ _).bind fun _ => blind_sendReply _ _ _ _
  | debug =>
    show Blind (debugRequest env I m c)
    unfold debugRequest
    split
    · exact Blind.pure _
    · exact (blind_userCall (blind_dop I) _ _).bind fun _ => blind_getMetadata.bind fun _ => blind_sendReply _ _ _ _

/-! ## Aborting the queue -/

theorem serial_abortLoop (k : Nat) (w : World σ) (hk : w.shellQ.length ≤ k) :
    SerialTo (abortLoop env k) (fun A p => ∃ N, w.shellQ.length + A.length < N ∧ p = abortLoop env N) w := by
  induction k generalizing w with
  | zero =>
    intro A B r w' h
    have hq : w.shellQ = [] := List.eq_nil_of_length_eq_zero (by omega)
    obtain ⟨h1, rfl⟩ := Walk.of_done h
    cases h1
    refine ⟨[], A, [], B, w, rfl, rfl, rfl, ?_⟩
    rintro p' ⟨N, hN, rfl⟩ X _
    cases N with
    | zero => omega
    | succ N =>
      have hq' : (w.more [] ([] ++ X)).shellQ = [] := by simp [World.more, hq]
      simp only [abortLoop, recvShell, K.run_bind, K.run_lift, hq']
      simp
  | succ k ih =>
    intro A B r w' h
    obtain ⟨A₀, B₀, A₁, B₁, w₁, rfl, rfl, hc⟩ := Walk.of_act h
    have run_nil : ∀ {N} {x : World σ}, x.shellQ = [] → (abortLoop env (N + 1)).run x = (.ok (), x) := by
      intro N x hx
      simp only [abortLoop, recvShell, K.run_bind, K.run_lift, hx, K.andThen_ok, K.run_pure]
    have run_cons : ∀ {N} {x : World σ} {q r}, x.shellQ = q :: r →
        (abortLoop env (N + 1)).run x = (abortRequest env q >>= fun _ => abortLoop env N).run { x with shellQ := r } := by
      intro N x q r hx
      simp only [abortLoop, recvShell, K.run_bind, K.run_lift, hx, K.andThen_ok]
    have rest : ∀ (q : Multipart) (x : World σ), x.shellQ.length ≤ k →
        SerialTo (abortRequest env q >>= fun _ => abortLoop env k)
          (fun A p => ∃ N, x.shellQ.length + A.length < N ∧ p = abortRequest env q >>= fun _ => abortLoop env N) x := by
      intro q x hx
      refine (SerialTo.blind_bind (Q := fun A _ p => ∃ N, x.shellQ.length + A.length < N ∧ p = abortLoop env N)
        (blind_abortRequest q) fun _ x' hx' => ?_).mono ?_
      · rw [← hx']
        exact ih x' (by rw [hx']; exact hx)
      · rintro A p' ⟨N, hN, rfl⟩
        exact ⟨_, rfl, fun _ => ⟨N, hN, rfl⟩⟩
    rcases hq : w.shellQ with _ | ⟨q, q'⟩
    · rcases A₀ with _ | ⟨q, q'⟩
      · have hq0 : (w.more [] B₀).shellQ = [] := by simp [World.more, hq]
        simp only [hq0, Prod.mk.injEq, Res.ok.injEq, reduceCtorEq, false_and, exists_false, or_false] at hc
        obtain ⟨_, ⟨rfl, rfl⟩, hc⟩ := hc
        obtain ⟨h1, rfl⟩ := Walk.of_done hc
        cases h1
        refine ⟨[], [] ++ A₁, B₀ ++ B₁, [], w.more [] (B₀ ++ B₁), rfl, by simp, by simp, ?_⟩
        rintro p' ⟨N, hN, rfl⟩ X _
        cases N with
        | zero => omega
        | succ N => rw [run_nil (by simp [World.more, hq])]; simp
      · have hq0 : (w.more (q :: q') B₀).shellQ = q :: q' := by simp [World.more, hq]
        simp only [hq0, Prod.mk.injEq, Res.ok.injEq, reduceCtorEq, false_and, exists_false, or_false] at hc
        obtain ⟨_, ⟨rfl, rfl⟩, hc⟩ := hc
        have e1 : { w.more (q :: q') B₀ with shellQ := q' } = w.more q' B₀ := by simp [World.more, hq]
        rw [e1] at hc
        obtain ⟨C₁, C₂, D₁, D₂, w₁, h1, h1', h2, h3⟩ := rest q w (by simp [hq]) _ _ _ _ (Walk.prepend hc)
        refine ⟨q :: C₁, C₂, D₁, D₂, w₁, by simp [h1], h1', h2, ?_⟩
        rintro p' ⟨N, hN, rfl⟩ X hX
        cases N with
        | zero => omega
        | succ N =>
          have e2 : (w.more (q :: C₁) (D₁ ++ X)).shellQ = q :: C₁ := by simp [World.more, hq]
          rw [run_cons e2, ← h3 _ ⟨N, by simp [hq] at hN ⊢; omega, rfl⟩ X hX]
          congr 1
          simp [World.more, hq]
    · have hq0 : (w.more A₀ B₀).shellQ = q :: (q' ++ A₀) := by simp [World.more, hq]
      simp only [hq0, Prod.mk.injEq, Res.ok.injEq, reduceCtorEq, false_and, exists_false, or_false] at hc
      obtain ⟨_, ⟨rfl, rfl⟩, hc⟩ := hc
      have e1 : { w.more A₀ B₀ with shellQ := q' ++ A₀ } = ({ w with shellQ := q' } : World σ).more A₀ B₀ := by simp [World.more]
      rw [e1] at hc
      obtain ⟨C₁, C₂, D₁, D₂, w₁, h1, h1', h2, h3⟩ := rest q { w with shellQ := q' } (by simp [hq] at hk; simpa using hk) _ _ _ _
        (Walk.prepend hc)
      refine ⟨C₁, C₂, D₁, D₂, w₁, h1, h1', h2, ?_⟩
      rintro p' ⟨N, hN, rfl⟩ X hX
      cases N with
      | zero => omega
      | succ N =>
        have e2 : (w.more C₁ (D₁ ++ X)).shellQ = q :: (q' ++ C₁) := by simp [World.more, hq]
        rw [run_cons e2, ← h3 _ ⟨N, by simp at hN ⊢; omega, rfl⟩ X hX]
        congr 1

theorem ser_abortQueue : Ser (σ := σ) (abortQueue env) := by
  intro w A B r w' h
  obtain ⟨A₀, B₀, A₁, B₁, w₁, rfl, rfl, hc⟩ := Walk.of_act h
  simp only [Prod.mk.injEq, Res.ok.injEq, reduceCtorEq, false_and, exists_false, or_false] at hc
  obtain ⟨n, ⟨rfl, rfl⟩, hc⟩ := hc
  obtain ⟨C₁, C₂, D₁, D₂, w₁, h1, h1', h2, h3⟩ := serial_abortLoop _ w (by simp [World.more]; omega) _ _ _ _ (Walk.prepend hc)
  refine ⟨C₁, C₂, D₁, D₂, w₁, h1, h1', h2, ?_⟩
  rintro p' rfl X hX
  rw [abortQueue, K.run_bind, K.run_read, K.andThen_ok]
  exact h3 _ ⟨_, by simp [World.more]; omega, rfl⟩ X hX

theorem ser_executeBody (I : Interp σ) (m : XMessage) (c : Chan) : Ser (executeBody env I m c) := by
  unfold executeBody
  refine Ser.blind_bind (Blind.ofRes _) fun _ => Ser.blind_bind (Blind.ofRes _) fun _ => Ser.blind_bind (Blind.ofRes _) fun _ =>
    Ser.blind_bind (Blind.ofRes _) fun _ => Ser.blind_bind (Blind.ofRes _) fun _ => Ser.blind_bind (Blind.ofRes _) fun _ =>
    Ser.blind_bind (Blind.ofRes _) fun _ => Ser.blind_bind blind_getMetadata fun _ =>
    Ser.blind_bind (blind_interpExecute _ _ _ _ _ _) fun _ => Ser.blind_bind (Blind.ofRes _) fun _ =>
    Ser.blind_bind (blind_sendReply _ _ _ _) fun _ => Ser.blind_bind ?_ fun _ => ?_
  · unfold storeK
    split
    · exact Blind.modify (fun _ => rfl) fun _ _ _ => rfl
    · exact Blind.pure _
  · unfold abortK
    split
    · exact ser_abortQueue
    · exact (Blind.pure _).ser

theorem Ser.catchStd {m : K (World σ) α} {h : Exc → K (World σ) α} (hm : Ser m) (hh : ∀ e, Blind (h e)) : Ser (K.catchStd m h) := by
  refine hm.attempt.bind_blind fun r => ?_
  cases r with
  | ok a => trivial
  | error e => simp only; split <;> first | exact hh e | trivial

theorem ser_handleType (I : Interp σ) (ty : Str) (m : XMessage) (c : Chan) : Ser (handleType env I ty m c) := by
  unfold handleType
  split
  · exact (Blind.pure _).ser
  · rename_i r _
    refine Ser.catchStd ?_ fun _ => Blind.pure _
    by_cases hr : r = .execute
    · subst hr
      exact (ser_executeBody I m c).catchStd fun _ => Blind.pure _
    · exact (blind_handle I hr m c).ser

theorem ser_dispatch (I : Interp σ) (q : Multipart) (c : Chan) : Ser (dispatch env I q c) := by
  refine Ser.blind_bind (Blind.ofRes _).attempt fun r => ?_
  cases r with
  | error e => simp only; split <;> first | exact (Blind.pure _).ser | exact (Blind.throw _).ser
  | ok msg =>
    exact Ser.blind_bind (blind_logK _) fun _ => Ser.blind_bind (blind_setParent _ _ _) fun _ =>
      Ser.blind_bind (blind_publish _ _ _ _ _) fun _ => Ser.blind_bind (Blind.ofRes _) fun _ =>
      (ser_handleType I _ _ _).bind_blind fun _ => blind_publish _ _ _ _ _

end

end Xeus
