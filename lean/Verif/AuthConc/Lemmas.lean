import Verif.AuthConc.Model
import Verif.Wire.Props

/-! # Concurrent signing: specification of a call, invariant -/

namespace Xeus

open Spec

/-- What a call yields when it is made alone, by the sequential functions of `Verif/Wire/Model.lean`. -/
def Spec.alone (C : Crypto) (a : Auth) : Job → JobOut
  | .sign h p m c => .signature (sign C a h p m c)
  | .verify s h p m c => .verdict (verify C a s h p m c)

/-- The call a thread is currently in. -/
def Pc.current : Pc → List Job
  | .idle => []
  | .locked j => [j]
  | .upd j _ => [j]
  | .fin j _ => [j]

/-- Invariant of one thread, given the shared state. -/
def ThreadInv (C : Crypto) (d : Digest) (key : Str) (jobs : List Job) (s : AState) (i : Nat) : Prop :=
  let t := s.th i
  (t.pc = .idle ∨ s.lock = some i) ∧
  t.out ++ (t.pc.current ++ t.todo).map (alone C (.hmac d key)) = jobs.map (alone C (.hmac d key)) ∧
  (∀ j fs, t.pc = .upd j fs → ∃ c, s.ctx = some c ∧ c.d = d ∧ c.key = key ∧
    c.absorbed ++ fs.flatten = j.frames.flatten) ∧
  (∀ j dg, t.pc = .fin j dg → dg = C.hmac d key j.frames.flatten)

theorem finish_alone (C : Crypto) (d : Digest) (key : Str) (j : Job) :
    j.finish (C.hmac d key j.frames.flatten) = alone C (.hmac d key) j := by
  cases j with
  | sign h p m c => simp [Job.finish, Job.frames, alone, sign, hexSig_eq]
  | verify s h p m c => simp [Job.finish, Job.frames, alone, verify, hexSig_eq]

theorem threadInv_step (C : Crypto) (d : Digest) (key : Str) (jobs : Nat → List Job) {s s' : AState}
    (h : ∀ i, ThreadInv C d key (jobs i) s i) (hs : AStep true C d key s s') :
    ∀ i, ThreadInv C d key (jobs i) s' i := by
  intro k
  have hk := h k
  cases hs with
  | @acquire i j js out ht hl =>
    have hi := h i
    by_cases hki : k = i
    · subst hki
      simp only [ThreadInv, ht] at hk
      simp only [ThreadInv, AState.setTh, if_true]
      exact ⟨.inr trivial, by simpa [Pc.current] using hk.2.1, by simp, by simp⟩
    · simp only [ThreadInv, AState.setTh, if_neg hki] at hk ⊢
      refine ⟨?_, hk.2⟩
      rcases hk.1 with h1 | h1
      · exact .inl h1
      · rw [hl rfl] at h1; simp at h1
  | @init i j js out ht =>
    have hi := h i
    have hlock : s.lock = some i := by
      have := hi.1; simp [ht] at this; exact this
    by_cases hki : k = i
    · subst hki
      simp only [ThreadInv, ht] at hk
      simp only [ThreadInv, AState.setTh, if_true]
      refine ⟨.inr hlock, by simpa [Pc.current] using hk.2.1, ?_, by simp⟩
      intro j' fs he
      simp only [Pc.upd.injEq] at he
      obtain ⟨rfl, rfl⟩ := he
      exact ⟨_, rfl, rfl, rfl, rfl⟩
    · have hidle : (s.th k).pc = .idle := by
        rcases hk.1 with h1 | h1
        · exact h1
        · rw [hlock] at h1; simp at h1; exact absurd h1.symm hki
      simp only [ThreadInv, AState.setTh, if_neg hki] at hk ⊢
      exact ⟨hk.1, hk.2.1, by simp [hidle], by simp [hidle]⟩
  | @update i j f fs js out c ht hc =>
    have hi := h i
    have hlock : s.lock = some i := by
      have := hi.1; simp [ht] at this; exact this
    by_cases hki : k = i
    · subst hki
      simp only [ThreadInv, ht] at hk
      simp only [ThreadInv, AState.setTh, if_true]
      refine ⟨.inr hlock, by simpa [Pc.current] using hk.2.1, ?_, by simp⟩
      intro j' fs' he
      simp only [Pc.upd.injEq] at he
      obtain ⟨rfl, rfl⟩ := he
      obtain ⟨c', h1, h2, h3, h4⟩ := hk.2.2.1 _ _ rfl
      rw [hc] at h1
      simp only [Option.some.injEq] at h1
      subst h1
      exact ⟨_, rfl, h2, h3, by simpa [hmacUpdate] using h4⟩
    · have hidle : (s.th k).pc = .idle := by
        rcases hk.1 with h1 | h1
        · exact h1
        · rw [hlock] at h1; simp at h1; exact absurd h1.symm hki
      simp only [ThreadInv, AState.setTh, if_neg hki] at hk ⊢
      exact ⟨hk.1, hk.2.1, by simp [hidle], by simp [hidle]⟩
  | @final i j js out c ht hc =>
    have hi := h i
    have hlock : s.lock = some i := by
      have := hi.1; simp [ht] at this; exact this
    by_cases hki : k = i
    · subst hki
      simp only [ThreadInv, ht] at hk
      simp only [ThreadInv, AState.setTh, if_true]
      refine ⟨.inr hlock, by simpa [Pc.current] using hk.2.1, by simp, ?_⟩
      intro j' dg he
      simp only [Pc.fin.injEq] at he
      obtain ⟨rfl, rfl⟩ := he
      obtain ⟨c', h1, h2, h3, h4⟩ := hk.2.2.1 _ _ rfl
      rw [hc] at h1
      simp only [Option.some.injEq] at h1
      subst h1
      simp only [List.flatten_nil, List.append_nil] at h4
      rw [hmacFinal, h2, h3, h4]
    · simp only [ThreadInv, AState.setTh, if_neg hki] at hk ⊢
      exact hk
  | @release i j dg js out ht =>
    have hi := h i
    have hlock : s.lock = some i := by
      have := hi.1; simp [ht] at this; exact this
    by_cases hki : k = i
    · subst hki
      simp only [ThreadInv, ht] at hk
      simp only [ThreadInv, AState.setTh, if_true]
      refine ⟨.inl trivial, ?_, by simp, by simp⟩
      have := hk.2.2.2 _ _ rfl
      rw [this, finish_alone]
      simpa [Pc.current] using hk.2.1
    · have hidle : (s.th k).pc = .idle := by
        rcases hk.1 with h1 | h1
        · exact h1
        · rw [hlock] at h1; simp at h1; exact absurd h1.symm hki
      simp only [ThreadInv, AState.setTh, if_neg hki] at hk ⊢
      exact ⟨.inl hidle, hk.2.1, by simp [hidle], by simp [hidle]⟩

theorem threadInv_reach (C : Crypto) (d : Digest) (key : Str) (jobs : Nat → List Job) {s : AState}
    (h : AReach true C d key jobs s) : ∀ i, ThreadInv C d key (jobs i) s i := by
  induction h with
  | start => intro i; simp [ThreadInv, aInit, Pc.current]
  | step _ hs ih => exact threadInv_step C d key jobs ih hs

/-- The lock is held only by a thread inside a call. -/
theorem lock_owner (C : Crypto) (d : Digest) (key : Str) (jobs : Nat → List Job) {s : AState}
    (h : AReach true C d key jobs s) (i : Nat) (hl : s.lock = some i) : (s.th i).pc ≠ .idle := by
  induction h with
  | start => simp [aInit] at hl
  | step hr hs ih =>
    cases hs with
    | @acquire i' j js out ht hf =>
      simp only [Option.some.injEq] at hl
      subst hl
      simp [AState.setTh]
    | @init i' j js out ht =>
      by_cases hk : i = i' <;> simp [AState.setTh, hk] at hl ⊢
      exact ih hl
    | @update i' j f fs js out c ht hc =>
      by_cases hk : i = i' <;> simp [AState.setTh, hk] at hl ⊢
      exact ih hl
    | @final i' j js out c ht hc =>
      by_cases hk : i = i' <;> simp [AState.setTh, hk] at hl ⊢
      exact ih hl
    | release => simp at hl

end Xeus
