import Verif.Kernels.Spec
import Verif.KernelConc.AnswerInv

/-!
# Programs that cannot fail, under interference (no property statements here)
-/

namespace Xeus

open Spec K

variable {σ : Type}

/-- What holds of the shared state at all times. -/
structure Placid (env : Env) (thr halt : Prop) (c₀ : Comms) (w : World σ) : Prop where
  parents : ParentsOk w
  comm : w.comm = c₀
  count : 0 ≤ w.count
  hist : ∀ e ∈ w.hist, Utf8 e.session ∧ Utf8 e.line ∧ Utf8 e.input ∧ Utf8 e.output
  queue : ∀ q ∈ w.shellQ, ¬ Undefined env.J env.auth q
  calm : ∀ e ∈ w.out, (∀ x, e = .threw x → thr) ∧ (e = .stop → halt)

/-- A program that, run from a placid state and with others keeping it so between any two steps, ends, without undefined behaviour
and without waiting.  It may increment the counter `n` times and extend the history by `k` entries; at the end it could still do
so `n₂` and `k₂` times.  If `keep`, it takes nothing from the shell queue. -/
def Sure (G : World σ → Prop) (keep : Prop) (n₂ k₂ : Nat) {α : Type} (Q : Except Exc α → Prop) :
    Nat → Nat → K (World σ) α → Prop
  | n, k, .done (.ok a) => n₂ ≤ n ∧ k₂ ≤ k ∧ Q (.ok a)
  | n, k, .done (.exc e) => n₂ ≤ n ∧ k₂ ≤ k ∧ Q (.error e)
  | _, _, .done (.ub _) => False
  | _, _, .done .hang => False
  | n, k, .act f g => ∀ w : World σ, G w → w.count + n ≤ intMax → (w.hist.length : Int) + k ≤ intMax →
      ∃ n' k' : Nat, G (f w).2 ∧ (f w).2.count + n' ≤ w.count + n ∧ (f w).2.hist.length + k' ≤ w.hist.length + k ∧
        (f w).2.shellQ <:+ w.shellQ ∧ (keep → (f w).2.shellQ = w.shellQ) ∧
        ((∃ b, (f w).1 = .ok b ∧ Sure G keep n₂ k₂ Q n' k' (g (.ok b))) ∨
         (∃ e, (f w).1 = .exc e ∧ Sure G keep n₂ k₂ Q n' k' (g (.error e))))

variable {G : World σ → Prop} {keep : Prop} {n k n₁ k₁ n₂ k₂ : Nat} {α β : Type}

theorem Sure.mono {Q Q' : Except Exc α → Prop} {m : K (World σ) α} (h : Sure G keep n₁ k₁ Q n k m)
    (hQ : ∀ r, Q r → Q' r) (hn : n₂ ≤ n₁) (hk : k₂ ≤ k₁) : Sure G keep n₂ k₂ Q' n k m := by
  induction m generalizing n k with
  | done r =>
    cases r with
    | ok a => exact ⟨Nat.le_trans hn h.1, Nat.le_trans hk h.2.1, hQ _ h.2.2⟩
    | exc e => exact ⟨Nat.le_trans hn h.1, Nat.le_trans hk h.2.1, hQ _ h.2.2⟩
    | ub _ => exact h
    | hang => exact h
  | act f g ih =>
    intro w hw h1 h2
    obtain ⟨n', k', a, b, c, d, d', e⟩ := h w hw h1 h2
    refine ⟨n', k', a, b, c, d, d', ?_⟩
    rcases e with ⟨b, e1, e2⟩ | ⟨x, e1, e2⟩
    · exact .inl ⟨b, e1, ih _ e2⟩
    · exact .inr ⟨x, e1, ih _ e2⟩

/-- More can be afforded. -/
theorem Sure.more {Q : Except Exc α → Prop} {m : K (World σ) α} (h : Sure G keep n₂ k₂ Q n k m) {n' k' : Nat}
    (hn : n ≤ n') (hk : k ≤ k') : Sure G keep n₂ k₂ Q n' k' m := by
  cases m with
  | done r =>
    cases r with
    | ok a => exact ⟨Nat.le_trans h.1 hn, Nat.le_trans h.2.1 hk, h.2.2⟩
    | exc e => exact ⟨Nat.le_trans h.1 hn, Nat.le_trans h.2.1 hk, h.2.2⟩
    | ub _ => exact h
    | hang => exact h
  | act f g =>
    intro w hw h1 h2
    obtain ⟨n', k', a, b, c, d⟩ := h w hw (by omega) (by omega)
    exact ⟨n', k', a, by omega, by omega, d⟩

theorem Sure.bind {Q : Except Exc β → Prop} {m : K (World σ) α} {g : α → K (World σ) β}
    (h : Sure G keep n₁ k₁ (fun r => match r with
      | .ok a => Sure G keep n₂ k₂ Q n₁ k₁ (g a)
      | .error e => n₂ ≤ n₁ ∧ k₂ ≤ k₁ ∧ Q (.error e)) n k m) : Sure G keep n₂ k₂ Q n k (m >>= g) := by
  show Sure G keep n₂ k₂ Q n k (m.bind g)
  induction m generalizing n k with
  | done r =>
    cases r with
    | ok a => exact Sure.more h.2.2 h.1 h.2.1
    | exc e => exact ⟨Nat.le_trans h.2.2.1 h.1, Nat.le_trans h.2.2.2.1 h.2.1, h.2.2.2.2⟩
    | ub _ => exact h
    | hang => exact h
  | act f g' ih =>
    intro w hw h1 h2
    obtain ⟨n', k', a, b, c, d, d', e⟩ := h w hw h1 h2
    refine ⟨n', k', a, b, c, d, d', ?_⟩
    rcases e with ⟨b, e1, e2⟩ | ⟨x, e1, e2⟩
    · exact .inl ⟨b, e1, ih _ e2⟩
    · exact .inr ⟨x, e1, ih _ e2⟩

theorem Sure.attempt {Q : Except Exc (Except Exc α) → Prop} {m : K (World σ) α}
    (h : Sure G keep n₂ k₂ (fun r => Q (.ok r)) n k m) : Sure G keep n₂ k₂ Q n k m.attempt := by
  induction m generalizing n k with
  | done r => cases r <;> exact h
  | act f g ih =>
    intro w hw h1 h2
    obtain ⟨n', k', a, b, c, d, d', e⟩ := h w hw h1 h2
    refine ⟨n', k', a, b, c, d, d', ?_⟩
    rcases e with ⟨b, e1, e2⟩ | ⟨x, e1, e2⟩
    · exact .inl ⟨b, e1, ih _ e2⟩
    · exact .inr ⟨x, e1, ih _ e2⟩

/-- One step. -/
theorem Sure.step {Q : Except Exc α → Prop} {m m' : K (World σ) α} {w w' : World σ} (h : Sure G keep n₂ k₂ Q n k m)
    (hw : G w) (h1 : w.count + n ≤ intMax) (h2 : (w.hist.length : Int) + k ≤ intMax) (hs : m.step w = some (m', w')) :
    ∃ n' k' : Nat, G w' ∧ w'.count + n' ≤ w.count + n ∧ w'.hist.length + k' ≤ w.hist.length + k ∧ w'.shellQ <:+ w.shellQ ∧
      (keep → w'.shellQ = w.shellQ) ∧ Sure G keep n₂ k₂ Q n' k' m' := by
  cases m with
  | done r => cases hs
  | act f g =>
    obtain ⟨n', k', a, b, c, d, d', e⟩ := h w hw h1 h2
    simp only [K.step, Option.some.injEq] at hs
    rcases hf : f w with ⟨r, w₁⟩
    rw [hf] at hs a b c d d' e
    rcases e with ⟨x, e1, e2⟩ | ⟨x, e1, e2⟩ <;> (simp only at e1; subst e1) <;>
      (simp only [Prod.mk.injEq] at hs; obtain ⟨rfl, rfl⟩ := hs; exact ⟨n', k', a, b, c, d, d', e2⟩)

/-- A run without interference. -/
theorem Sure.run {Q : Except Exc α → Prop} {m : K (World σ) α} (h : Sure G keep n₂ k₂ Q n k m) {w : World σ} (hw : G w)
    (h1 : w.count + n ≤ intMax) (h2 : (w.hist.length : Int) + k ≤ intMax) :
    ∃ r w', ((∃ a, r = .ok a ∧ m.run w = (.ok a, w')) ∨ (∃ e, r = .error e ∧ m.run w = (.exc e, w'))) ∧ Q r ∧ G w' ∧
      w'.count + n₂ ≤ w.count + n ∧ w'.hist.length + k₂ ≤ w.hist.length + k ∧ w'.shellQ <:+ w.shellQ ∧
      (keep → w'.shellQ = w.shellQ) := by
  induction m generalizing n k w with
  | done r =>
    cases r with
    | ok a =>
      have := h.1; have := h.2.1
      exact ⟨.ok a, w, .inl ⟨a, rfl, rfl⟩, h.2.2, hw, by omega, by omega, List.suffix_refl _, fun _ => rfl⟩
    | exc e =>
      have := h.1; have := h.2.1
      exact ⟨.error e, w, .inr ⟨e, rfl, rfl⟩, h.2.2, hw, by omega, by omega, List.suffix_refl _, fun _ => rfl⟩
    | ub _ => exact h.elim
    | hang => exact h.elim
  | act f g ih =>
    obtain ⟨n', k', a, b, c, d, d', e⟩ := h w hw h1 h2
    obtain ⟨x, hx, hr⟩ : ∃ x, Sure G keep n₂ k₂ Q n' k' (g x) ∧ (K.act f g).run w = (g x).run (f w).2 := by
      rcases e with ⟨x, e1, e2⟩ | ⟨x, e1, e2⟩
      · refine ⟨_, e2, ?_⟩
        have : f w = (.ok x, (f w).2) := by rw [← e1]
        simp only [K.run]
        rw [this]
      · refine ⟨_, e2, ?_⟩
        have : f w = (.exc x, (f w).2) := by rw [← e1]
        simp only [K.run]
        rw [this]
    obtain ⟨r, w', e1, e2, e3, e4, e5, e6, e7⟩ := ih x hx a (by omega) (by omega)
    exact ⟨r, w', by rw [hr]; exact e1, e2, e3, by omega, by omega, e6.trans d, fun hk => (e7 hk).trans (d' hk)⟩

/-! ## Outcomes -/

/-- The outcome is a value satisfying `P` or a `std::exception`. -/
def Std (P : α → Prop) (r : Except Exc α) : Prop := (∀ a, r = .ok a → P a) ∧ ∀ e, r = .error e → e.isStd = true

/-- The outcome is a value satisfying `P`. -/
def Val? (P : α → Prop) (r : Except Exc α) : Prop := ∃ a, r = .ok a ∧ P a

theorem Val?.std {P : α → Prop} {r : Except Exc α} (h : Val? P r) : Std P r := by
  obtain ⟨a, rfl, h⟩ := h
  exact ⟨fun _ h' => (by cases h'; exact h), fun _ h' => (by cases h')⟩

theorem Std.error {P : α → Prop} {e : Exc} (h : e.isStd = true) : Std P (.error e) :=
  ⟨fun _ h' => (by cases h'), fun _ h' => (by cases h'; exact h)⟩

theorem Std.ok {P : α → Prop} {a : α} (h : P a) : Std P (.ok a) :=
  ⟨fun _ h' => (by cases h'; exact h), fun _ h' => (by cases h')⟩

/-- A program whose outcome is a value or a `std::exception`, without spending anything. -/
abbrev Mod (G : World σ → Prop) (keep : Prop) (n k : Nat) (P : α → Prop) (m : K (World σ) α) : Prop :=
  Sure G keep n k (Std P) n k m

/-- A program that has a value, without spending anything. -/
abbrev Has (G : World σ → Prop) (keep : Prop) (n k : Nat) (P : α → Prop) (m : K (World σ) α) : Prop :=
  Sure G keep n k (Val? P) n k m

theorem Has.mod {P : α → Prop} {m : K (World σ) α} (h : Has G keep n k P m) : Mod G keep n k P m :=
  Sure.mono h (fun _ h => h.std) (Nat.le_refl _) (Nat.le_refl _)

/-- First a program that spends nothing. -/
theorem Sure.after {P : α → Prop} {Q : β → Prop} {m : K (World σ) α} {g : α → K (World σ) β} (h : Mod G keep n k P m)
    (hg : ∀ a, P a → Sure G keep n₂ k₂ (Std Q) n k (g a)) (hn : n₂ ≤ n) (hk : k₂ ≤ k) :
    Sure G keep n₂ k₂ (Std Q) n k (m >>= g) := by
  refine Sure.bind (Sure.mono h ?_ (Nat.le_refl _) (Nat.le_refl _))
  rintro (e | a) ⟨h1, h2⟩
  · exact ⟨hn, hk, Std.error (h2 e rfl)⟩
  · exact hg a (h1 a rfl)

theorem Has.bind {P : α → Prop} {Q : β → Prop} {m : K (World σ) α} {g : α → K (World σ) β} (h : Has G keep n k P m)
    (hg : ∀ a, P a → Has G keep n k Q (g a)) : Has G keep n k Q (m >>= g) := by
  refine Sure.bind (Sure.mono h ?_ (Nat.le_refl _) (Nat.le_refl _))
  rintro _ ⟨a, rfl, h⟩
  exact hg a h

theorem Mod.pure {P : α → Prop} {a : α} (h : P a) : Mod G keep n k P (Pure.pure a : K (World σ) α) :=
  ⟨Nat.le_refl _, Nat.le_refl _, Std.ok h⟩

theorem Has.pure {P : α → Prop} {a : α} (h : P a) : Has G keep n k P (Pure.pure a : K (World σ) α) :=
  ⟨Nat.le_refl _, Nat.le_refl _, _, rfl, h⟩

theorem Mod.ofRes {P : α → Prop} {r : Res α} (h1 : ∀ a, r = .ok a → P a) (h2 : ∀ s, r ≠ .ub s) (h3 : r ≠ .hang)
    (h4 : ∀ j, r ≠ .exc (.foreign j)) : Mod G keep n k P (K.ofRes r : K (World σ) α) := by
  cases r with
  | ok a => exact Mod.pure (h1 a rfl)
  | exc e =>
    refine ⟨Nat.le_refl _, Nat.le_refl _, Std.error ?_⟩
    cases e with
    | foreign j => exact absurd rfl (h4 j)
    | _ => rfl
  | ub s => exact absurd rfl (h2 s)
  | hang => exact absurd rfl h3

theorem Has.ofRes {P : α → Prop} {r : Res α} {a : α} (h : r = .ok a) (hp : P a) : Has G keep n k P (K.ofRes r : K (World σ) α) := by
  subst h; exact Has.pure hp

/-- Catching makes the outcome a value. -/
theorem Sure.catchStd {m : K (World σ) Unit} (h : Sure G keep n₂ k₂ (Std fun _ => True) n k m) :
    Sure G keep n₂ k₂ (Val? fun _ => True) n k (K.catchStd m fun _ => Pure.pure ()) := by
  refine Sure.bind (Sure.attempt (Sure.mono h ?_ (Nat.le_refl _) (Nat.le_refl _)))
  rintro (e | a) ⟨_, h2⟩
  · show Sure _ _ _ _ _ _ _ (if e.isStd then _ else _)
    rw [h2 e rfl]
    exact Has.pure trivial
  · exact Has.pure trivial

end Xeus
