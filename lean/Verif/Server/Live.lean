/-!
# Executions and fairness

Threads `W` take steps in any order; an execution may also pause.  Fairness is weak fairness: a thread that could always
take a step from some time on takes one.
-/

namespace Xeus

/-- An infinite execution: states, and who took the step (`none`: nothing happened). -/
structure Execution {S W : Type _} (step : W → S → S → Prop) where
  state : Nat → S
  who : Nat → Option W
  ok : ∀ n, match who n with
    | none => state (n + 1) = state n
    | some a => step a (state n) (state (n + 1))

/-- Somebody can take a step. -/
def CanStep {S W : Type _} (step : W → S → S → Prop) (a : W) (s : S) : Prop := ∃ s', step a s s'

/-- A thread that can take a step from some time on takes one. -/
def Fair {S W : Type _} {step : W → S → S → Prop} (e : Execution step) (a : W) : Prop :=
  ∀ n, (∀ m, n ≤ m → CanStep step a (e.state m)) → ∃ m, n ≤ m ∧ e.who m = some a

/-- Any number of steps. -/
inductive Steps {S W : Type _} (step : W → S → S → Prop) : S → S → Prop
  | refl (s : S) : Steps step s s
  | tail {s s' s'' : S} {a : W} : Steps step s s' → step a s' s'' → Steps step s s''

theorem Steps.trans {S W : Type _} {step : W → S → S → Prop} {s s' s'' : S} (h : Steps step s s') (h' : Steps step s' s'') :
    Steps step s s'' := by
  induction h' with
  | refl => exact h
  | tail _ hs ih => exact ih.tail hs

/-- A finite execution can be continued by pausing for ever. -/
theorem exec_of_steps {S W : Type _} {step : W → S → S → Prop} {s s' : S} (h : Steps step s s') :
    ∃ (e : Execution step) (N : Nat), e.state 0 = s ∧ ∀ n, N ≤ n → e.state n = s' := by
  induction h with
  | refl => exact ⟨⟨fun _ => s, fun _ => none, fun _ => rfl⟩, 0, rfl, fun _ _ => rfl⟩
  | @tail s' s'' a _ hs ih =>
    obtain ⟨e, N, h0, hN⟩ := ih
    refine ⟨⟨fun n => if n ≤ N then e.state n else s'', fun n => if n < N then e.who n else if n = N then some a else none, ?_⟩,
      N + 1, ?_, ?_⟩
    · intro n
      have := e.ok n
      by_cases h1 : n < N
      · rw [if_pos h1, if_pos (by omega), if_pos (by omega)]; exact this
      · by_cases h2 : n = N
        · subst h2
          rw [if_neg h1, if_pos rfl, if_pos (Nat.le_refl _), if_neg (by omega), hN n (Nat.le_refl _)]
          exact hs
        · rw [if_neg h1, if_neg h2, if_neg (by omega), if_neg (by omega)]
    · show (if 0 ≤ N then e.state 0 else s'') = s
      rw [if_pos (Nat.zero_le _)]; exact h0
    · intro n hn
      show (if n ≤ N then e.state n else s'') = s''
      rw [if_neg (by omega)]

/-- The same with a state in between. -/
theorem exec_through {S W : Type _} {step : W → S → S → Prop} {s s' s'' : S} (h : Steps step s s') (h' : Steps step s' s'') :
    ∃ (e : Execution step) (n N : Nat), e.state 0 = s ∧ e.state n = s' ∧ ∀ m, N ≤ m → e.state m = s'' := by
  obtain ⟨e, N, h0, hN⟩ := exec_of_steps h
  obtain ⟨e', N', h0', hN'⟩ := exec_of_steps h'
  refine ⟨⟨fun n => if n < N then e.state n else e'.state (n - N), fun n => if n < N then e.who n else e'.who (n - N), ?_⟩,
    N, N + N', ?_, ?_, ?_⟩
  · intro n
    by_cases h1 : n < N
    · have := e.ok n
      rw [if_pos h1, if_pos h1]
      by_cases h2 : n + 1 < N
      · rw [if_pos h2]; exact this
      · rw [if_neg h2]
        obtain rfl : N = n + 1 := by omega
        rw [Nat.sub_self, h0', ← hN (n + 1) (Nat.le_refl _)]
        exact this
    · have := e'.ok (n - N)
      rw [if_neg h1, if_neg h1, if_neg (by omega), show n + 1 - N = n - N + 1 by omega]
      exact this
  · show (if 0 < N then e.state 0 else e'.state (0 - N)) = s
    by_cases h1 : 0 < N
    · rw [if_pos h1]; exact h0
    · obtain rfl : N = 0 := by omega
      rw [if_neg h1, h0', ← hN 0 (Nat.le_refl _)]; exact h0
  · show (if N < N then e.state N else e'.state (N - N)) = s'
    rw [if_neg (Nat.lt_irrefl _), Nat.sub_self]; exact h0'
  · intro m hm
    show (if m < N then e.state m else e'.state (m - N)) = s''
    rw [if_neg (by omega)]
    exact hN' _ (by omega)

/-- Such an execution is fair to those who have nothing left to do. -/
theorem fair_of_end {S W : Type _} {step : W → S → S → Prop} (e : Execution step) {N : Nat} {s : S}
    (h : ∀ n, N ≤ n → e.state n = s) {a : W} (ha : ¬ CanStep step a s) : Fair e a := by
  intro n hn
  exfalso
  apply ha
  rw [← h (max n N) (Nat.le_max_right _ _)]
  exact hn _ (Nat.le_max_left _ _)

/-- Progress by a measure in a well-founded order that no step increases: in every state some thread can take a step, which
decreases it, and can do so until it is decreased. -/
theorem progress {S W M : Type _} {step : W → S → S → Prop} {lt : M → M → Prop} (wf : WellFounded lt) (e : Execution step)
    (P : S → Prop) (goal : S → Prop) (rank : S → M) (help : S → W)
    (n₀ : Nat) (hP : ∀ n, n₀ ≤ n → P (e.state n)) (hfair : ∀ s, P s → ¬ goal s → Fair e (help s))
    (hcan : ∀ s, P s → ¬ goal s → CanStep step (help s) s)
    (hstep : ∀ a s s', P s → P s' → ¬ goal s → step a s s' → goal s' ∨ lt (rank s') (rank s) ∨
      (a ≠ help s ∧ rank s' = rank s ∧ help s' = help s)) :
    ∃ m, n₀ ≤ m ∧ goal (e.state m) := by
  suffices h : ∀ (r : M) (n : Nat), n₀ ≤ n → rank (e.state n) = r → ∃ m, n ≤ m ∧ goal (e.state m) from
    h _ n₀ (Nat.le_refl _) rfl
  intro r
  induction r using wf.induction with
  | _ r ih =>
    intro n hn hr
    apply Classical.byContradiction
    intro hno
    have hng : ∀ m, n ≤ m → ¬ goal (e.state m) := fun m hm h => hno ⟨m, hm, h⟩
    have hsame : ∀ k, rank (e.state (n + k)) = r ∧ help (e.state (n + k)) = help (e.state n) ∧
        (k ≠ 0 → e.who (n + k - 1) ≠ some (help (e.state n))) := by
      intro k
      induction k with
      | zero => exact ⟨hr, rfl, fun h => absurd rfl h⟩
      | succ k ihk =>
        have hk := e.ok (n + k)
        cases hw : e.who (n + k) with
        | none =>
          rw [hw] at hk
          simp only at hk
          refine ⟨?_, ?_, fun _ => ?_⟩
          · show rank (e.state (n + k + 1)) = r
            rw [hk]; exact ihk.1
          · show help (e.state (n + k + 1)) = _
            rw [hk]; exact ihk.2.1
          · show e.who (n + k) ≠ _
            rw [hw]; intro h; cases h
        | some a =>
          rw [hw] at hk
          simp only at hk
          rcases hstep a _ _ (hP _ (by omega)) (hP _ (by omega)) (hng _ (Nat.le_add_right _ _)) hk with h | h | ⟨h1, h2, h3⟩
          · exact absurd h (hng (n + k + 1) (by omega))
          · rw [ihk.1] at h
            obtain ⟨m, hm, hg⟩ := ih _ h (n + k + 1) (by omega) rfl
            exact absurd hg (hng m (by omega))
          · refine ⟨h2.trans ihk.1, h3.trans ihk.2.1, fun _ => ?_⟩
            show e.who (n + k) ≠ _
            rw [hw]
            intro h
            exact h1 ((Option.some.inj h).trans ihk.2.1.symm)
    obtain ⟨m, hm, hw⟩ := hfair _ (hP n hn) (hng n (Nat.le_refl _)) n (by
      intro m hm
      obtain ⟨k, rfl⟩ := Nat.exists_eq_add_of_le hm
      rw [← (hsame k).2.1]
      exact hcan _ (hP _ (by omega)) (hng _ hm))
    obtain ⟨k, rfl⟩ := Nat.exists_eq_add_of_le hm
    exact (hsame (k + 1)).2.2 (by omega) hw

end Xeus
