import Verif.AuthConc.Lemmas

/-!
# Property C07: signing is thread safe
-/

namespace Xeus

open Spec

/-- C07: with the mutex, in every reachable state of every interleaving the results each thread has
obtained are exactly, in order, those its calls yield alone: the results so far, followed by the alone
results of the calls still to be finished, are the alone results of all its calls. -/
theorem C07_thread_safe (C : Crypto) (d : Digest) (key : Str) (jobs : Nat → List Job) (s : AState)
    (h : AReach true C d key jobs s) (i : Nat) :
    (s.th i).out = ((jobs i).map (alone C (.hmac d key))).take (s.th i).out.length ∧
    ((s.th i).pc = .idle → (s.th i).todo = [] → (s.th i).out = (jobs i).map (alone C (.hmac d key))) := by
  have hi := (threadInv_reach C d key jobs h i).2.1
  constructor
  · rw [← hi]; simp
  · intro h1 h2
    rw [← hi, h1, h2]; simp [Pc.current]

/-- C07: no two threads are ever inside the critical section together (so the HMAC context is never
accessed by two threads at once). -/
theorem C07_mutual_exclusion (C : Crypto) (d : Digest) (key : Str) (jobs : Nat → List Job) (s : AState)
    (h : AReach true C d key jobs s) (i k : Nat) (hi : (s.th i).pc ≠ .idle) (hk : (s.th k).pc ≠ .idle) :
    i = k := by
  have h1 := (threadInv_reach C d key jobs h i).1
  have h2 := (threadInv_reach C d key jobs h k).1
  rcases h1 with h1 | h1
  · exact absurd h1 hi
  · rcases h2 with h2 | h2
    · exact absurd h2 hk
    · rw [h1] at h2; simpa using h2

/-- C07: no deadlock: as long as some thread has a call to make or to finish, some thread can step. -/
theorem C07_progress (C : Crypto) (d : Digest) (key : Str) (jobs : Nat → List Job) (s : AState)
    (h : AReach true C d key jobs s) (i : Nat) (hi : (s.th i).pc ≠ .idle ∨ (s.th i).todo ≠ []) :
    ∃ s', AStep true C d key s s' := by
  have key' : ∀ k, (s.th k).pc ≠ .idle → ∃ s', AStep true C d key s s' := by
    intro k hk
    have hinv := threadInv_reach C d key jobs h k
    cases ht : s.th k with
    | mk pc todo out =>
      cases pc with
      | idle => simp [ht] at hk
      | locked j => exact ⟨_, .init ht⟩
      | upd j fs =>
        obtain ⟨c, hc, _⟩ := hinv.2.2.1 j fs (by rw [ht])
        cases fs with
        | nil => exact ⟨_, .final ht hc⟩
        | cons f fs => exact ⟨_, .update ht hc⟩
      | fin j dg => exact ⟨_, .release ht⟩
  by_cases hp : (s.th i).pc = .idle
  · have htodo : (s.th i).todo ≠ [] := by
      rcases hi with hi | hi
      · exact absurd hp hi
      · exact hi
    cases hl : s.lock with
    | none =>
      cases ht : s.th i with
      | mk pc todo out =>
        rw [ht] at hp htodo
        simp only at hp htodo
        subst hp
        cases todo with
        | nil => exact absurd rfl htodo
        | cons j js => exact ⟨_, .acquire ht (fun _ => hl)⟩
    | some k => exact key' k (lock_owner C d key jobs h k hl)
  · exact key' i hp

/-! ### The mutex is needed -/

/-- Two threads, one signature each. -/
def racyJobs : Nat → List Job
  | 0 => [.sign [1] [] [] []]
  | 1 => [.sign [2] [] [] []]
  | _ => []

/-- C07: without the mutex some interleaving makes a thread deliver a wrong signature. -/
theorem C07_unlocked_race :
    ∃ (C : Crypto) (s : AState), AReach false C .md5 [] racyJobs s ∧
      (s.th 0).pc = .idle ∧ (s.th 0).todo = [] ∧
      (s.th 0).out ≠ (racyJobs 0).map (alone C (.hmac .md5 [])) := by
  have r1 := AReach.start (mutex := false) (C := toyCrypto) (d := .md5) (key := []) (jobs := racyJobs)
  have r2 := r1.step (.acquire (i := 0) rfl (by simp))
  have r3 := r2.step (.init (i := 0) rfl)
  have r4 := r3.step (.acquire (i := 1) rfl (by simp))
  have r5 := r4.step (.update (i := 0) rfl rfl)
  have r6 := r5.step (.init (i := 1) rfl)
  have r7 := r6.step (.update (i := 0) rfl rfl)
  have r8 := r7.step (.update (i := 0) rfl rfl)
  have r9 := r8.step (.update (i := 0) rfl rfl)
  have r10 := r9.step (.final (i := 0) rfl rfl)
  have r11 := r10.step (.release (i := 0) rfl)
  exact ⟨toyCrypto, _, r11, rfl, rfl, by decide⟩

/-- a reachable state of the locked system in which thread 1 has finished its call while thread 0 is
waiting -/
example : ∃ s, AReach true toyCrypto .md5 [] racyJobs s ∧ (s.th 1).out.length = 1 ∧
    (s.th 0).todo ≠ [] := by
  have r1 := AReach.start (mutex := true) (C := toyCrypto) (d := .md5) (key := []) (jobs := racyJobs)
  have r2 := r1.step (.acquire (i := 1) rfl (fun _ => rfl))
  have r3 := r2.step (.init (i := 1) rfl)
  have r5 := r3.step (.update (i := 1) rfl rfl)
  have r7 := r5.step (.update (i := 1) rfl rfl)
  have r8 := r7.step (.update (i := 1) rfl rfl)
  have r9 := r8.step (.update (i := 1) rfl rfl)
  have r10 := r9.step (.final (i := 1) rfl rfl)
  have r11 := r10.step (.release (i := 1) rfl)
  exact ⟨_, r11, rfl, by decide⟩

end Xeus
