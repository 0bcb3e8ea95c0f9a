import Verif.Server.Sieve
import Verif.Server.OrderlyProps

/-!
# C108: refused messages have no effect on a running server
-/

namespace Xeus

open Spec

variable {σ : Type}

theorem serial_sieve {env : Env} {I : Interp σ} {st : Start σ} {hs : List (Chan × Multipart)} {as : List Multipart} {w : World σ}
    (h : Serial env I st hs as w) : Serial env I st (unrefused env (·.2) hs) (unrefused env id as) (w.sift env) := by
  induction h with
  | start =>
    have e : st.w.sift env = st.w := by
      have h := st.shellQ
      rcases hw : st.w with ⟨⟩
      rw [hw] at h
      simp only at h
      subst h
      rfl
    rw [e]
    exact .start
  | @arrive hs as w A B _ ih =>
    have := ih.arrive (heard env A) B
    have e : ({ w with shellQ := w.shellQ ++ A, stdinQ := w.stdinQ ++ B } : World σ).sift env =
        { w.sift env with shellQ := (w.sift env).shellQ ++ heard env A, stdinQ := (w.sift env).stdinQ ++ B } := by
      simp [World.sift, heard_append]
    rw [e, show unrefused env id (as ++ A) = unrefused env id as ++ heard env A from heard_append as A]
    exact this
  | @shell hs as w w' q r _ hn hq hrun ih =>
    by_cases hr : Refused env.C env.J env.auth q
    · rw [dispatch_refused I .shell _ hr] at hrun
      simp only [Prod.mk.injEq, true_and] at hrun
      subst hrun
      have e : ({ w with shellQ := r } : World σ).sift env = w.sift env := by simp [World.sift, hq, heard_refused hr]
      rw [e]
      have e' : unrefused env (·.2) (hs ++ [(Chan.shell, q)]) = unrefused env (·.2) hs := by simp [unrefused, hr]
      rw [e']
      exact ih
    · have e' : unrefused env (·.2) (hs ++ [(Chan.shell, q)]) = unrefused env (·.2) hs ++ [(Chan.shell, q)] := by simp [unrefused, hr]
      rw [e']
      refine ih.shell q (heard env r) hn (by simp [World.sift, hq, heard_kept hr]) ?_
      have := sieves_dispatch (env := env) I q .shell { w with shellQ := r }
      rw [hrun] at this
      exact this
  | @control hs as w w' q _ hn hrun ih =>
    by_cases hr : Refused env.C env.J env.auth q
    · rw [dispatch_refused I .control _ hr] at hrun
      simp only [Prod.mk.injEq, true_and] at hrun
      subst hrun
      have e' : unrefused env (·.2) (hs ++ [(Chan.control, q)]) = unrefused env (·.2) hs := by simp [unrefused, hr]
      rw [e']
      exact ih
    · have e' : unrefused env (·.2) (hs ++ [(Chan.control, q)]) = unrefused env (·.2) hs ++ [(Chan.control, q)] := by simp [unrefused, hr]
      rw [e']
      refine ih.control q hn ?_
      have := sieves_dispatch (env := env) I q .control w
      rw [hrun] at this
      exact this

/-- C108: while the default server is not handling a message, its kernel is as if the refused messages had never arrived: handling the other
ones in the same order leads to the same state, in which the others wait; in particular all that was sent is the same. -/
theorem C108_default (env : Env) (I : Interp σ) (st : Start σ) (s : Main σ) (h : Main.Reach env I st s) (hi : Idle s) :
    Serial env I st (unrefused env (·.2) (handledIn s.log)) (unrefused env id (arrivedOn .shell s.log))
      { s.c.w with shellQ := unrefused env id s.c.w.shellQ } ∧ s.c.w.out = eventsIn s.log :=
  ⟨serial_sieve (C78_serial env I st s h hi), (Main.events_reach h).symm⟩

/-- C108: the same for the split servers when their threads take turns. -/
theorem C108_split (env : Env) (hs : Sane env) (I : Interp σ) (hd : SendsValues I) (st : Start σ) (s : Duo σ) (h : InTurn env I st s)
    (hi : ∀ t, Between s t) :
    Serial env I st (unrefused env (·.2) (handledIn (served s.log))) (unrefused env id (arrivedOn .shell (served s.log)))
      { s.w with shellQ := unrefused env id s.w.shellQ } ∧ s.w.out = eventsIn (served s.log) :=
  ⟨serial_sieve (C107_serial env hs I hd st s h hi), (Duo.events_reach (sound_of hs hd) (Duo.orderly_reach h)).symm⟩

/-- C108: without refused messages the handler of a message that is not refused does the same, whatever its outcome, also if it aborts the
messages that are waiting. -/
theorem C108_handler (env : Env) (I : Interp σ) (q : Multipart) (c : Chan) (w : World σ) :
    (dispatch env I q c).run { w with shellQ := unrefused env id w.shellQ } =
      (((dispatch env I q c).run w).1,
        { ((dispatch env I q c).run w).2 with shellQ := unrefused env id ((dispatch env I q c).run w).2.shellQ }) :=
  sieves_dispatch I q c w

/-- A message that cannot be read, a request whose execution fails and aborts the others, another message that cannot be read, and a request
that is aborted; then another request. -/
def Main.noiseTurns : List Main.Choice :=
  [.shell [lit "x"], .shell (wireOf (reqFrom "a" "m1" "execute_request" (.obj [(lit "code", .str (lit "1")), (lit "stop_on_error", .bool true)]))),
   .shell [lit "y"], .shell (wireOf (reqFrom "a" "m2" "kernel_info_request" (.obj [])))] ++ List.replicate 80 Main.Choice.main ++
  [.control [lit "z"], .shell (wireOf (reqFrom "a" "m3" "kernel_info_request" (.obj [])))] ++ List.replicate 60 Main.Choice.main

/-- The state after that. -/
def Main.noise : Main Nat := Main.noiseTurns.foldl (Main.choose sampleEnv failInterp) (Main.init 0)

/-- Four messages were handled, two of them refused; one of those aborted was refused, too. -/
example : Main.Reach sampleEnv failInterp 0 Main.noise ∧ Main.noise.pc = .polling ∧ (handledIn Main.noise.log).length = 4 ∧
    (takenFrom .shell Main.noise.log).length = 5 ∧ (repliesIn (eventsIn Main.noise.log)).length = 3 ∧
    ∃ l : List Multipart, l = [[lit "x"], [lit "y"], [lit "z"]] ∧ (∀ q ∈ l, Refused sampleEnv.C sampleEnv.J sampleEnv.auth q) ∧
      [lit "x"] ∈ (handledIn Main.noise.log).map (·.2) ∧ [lit "z"] ∈ (handledIn Main.noise.log).map (·.2) ∧
      SEv.act (.drained .shell [lit "y"]) ∈ Main.noise.log := by
  refine ⟨Main.reach_choose _, by decide +kernel, by decide +kernel, by decide +kernel, by decide +kernel, _, rfl, ?_, by decide +kernel,
    by decide +kernel, by decide +kernel⟩
  intro q hq
  refine (C03_refused_iff _ _ _ q).1 ?_
  have key : ∀ r : Res XMessage, (match r with | .exc e => e.isStd | _ => false) = true → Rejected r := by
    intro r h
    split at h
    · exact ⟨_, rfl, h⟩
    · cases h
  simp only [List.mem_cons, List.not_mem_nil, or_false] at hq
  rcases hq with rfl | rfl | rfl <;> exact key _ (by decide +kernel)

end Xeus
