import Verif.Kernels.SessionProps
import Verif.Server.OrderlyProps

/-!
# C107: sessions with the test kernel on split servers

test/main_control.cpp and test/main_shell.cpp run the interpreter of test/main.cpp on the split servers.
-/

namespace Xeus

open Spec Kernels

variable {env : Env}

theorem testing_sends : SendsValues testing := by
  intro d hd
  cases hd

theorem says_no_stop {h : Json} {l : List (String × Json)} {es : List Ev} (hs : Says env h l es) : Ev.stop ∉ es := by
  induction l generalizing es with
  | nil => obtain rfl : es = [] := hs; simp
  | cons x l ih =>
    obtain ⟨e, es', rfl, he, hs⟩ := hs
    obtain ⟨_, _, rfl, _⟩ := he
    simp [ih hs]

theorem turn_no_stop {m : XMessage} {k : Call} {rt : String} {P : Json → Prop} {es : List Ev} (h : TestTurn env m k rt P es) : Ev.stop ∉ es := by
  obtain ⟨b, md, j, rep, i, ⟨_, _, rfl, _⟩, _, ⟨_, _, rfl, _⟩, ⟨_, _, rfl, _⟩, rfl⟩ := h
  simp

theorem session_no_stop {qs : List Multipart} {es : List Ev} {n : Int} {h : Hist} (hS : TestSession env qs es n h) : Ev.stop ∉ es := by
  induction hS with
  | nil => simp
  | refused _ _ _ ih => exact ih
  | execute q m f blk _ _ _ _ hb ih =>
    obtain ⟨b, pre, said, md, j, rep, i, ⟨_, _, rfl, _⟩, hp, hsaid, _, ⟨_, _, rfl, _⟩, ⟨_, _, rfl, _⟩, rfl⟩ := hb
    have h1 : Ev.stop ∉ pre := by
      split at hp
      · rw [hp]; simp
      · obtain ⟨e, rfl, ⟨_, _, rfl, _⟩⟩ := hp; simp
    simp [ih, h1, says_no_stop hsaid]
  | complete q m code pos blk _ _ _ _ hb ih => simp [ih, turn_no_stop hb]
  | inspect q m code pos d blk _ _ _ _ hb ih => simp [ih, turn_no_stop hb]
  | isComplete q m code blk _ _ _ _ hb ih => simp [ih, turn_no_stop hb]
  | info q m blk _ _ _ hb ih => simp [ih, turn_no_stop hb]

theorem test_orderly (hs : Sane env) (st : Start Unit) (s : Duo Unit) (h : Duo.Reach env testing st s)
    (hq : ∀ x ∈ handledIn (served s.log), x.1 = .shell ∧ ∀ m, Accepted env.C env.J env.auth x.2 m → TestAsks m) : InTurn env testing st s := by
  have hd := sound_of hs testing_sends
  induction h with
  | init => exact .start
  | @step s s' a hr hstep ih =>
    have hq' := fun x hx => hq x ((Duo.handled_step hstep).subset hx)
    have unused : ∀ {s : Duo Unit}, Duo.Reach env testing st s → (∀ x ∈ handledIn (served s.log), x.1 = .shell ∧
        ∀ m, Accepted env.C env.J env.auth x.2 m → TestAsks m) → Between s .control :=
      fun hr hq => Duo.between_unused hd hr fun q hm => by have := (hq _ hm).1; cases this
    refine .step (ih hq') hstep (.inl (unused (hr.step hstep) hq)) ?_
    by_cases hn : handledIn (served s'.log) = handledIn (served s.log)
    · exact .inl hn
    · obtain ⟨t, q, h1, h2, _⟩ := Duo.took_between hstep hn
      have ht := (hq (t, q) (by rw [h1]; simp)).1
      simp only at ht
      subst ht
      obtain ⟨h', _, hS⟩ := serial_session hs (C107_serial env hs testing testing_sends st s (ih hq') fun t => by
        cases t with
        | shell => exact h2
        | control => exact unused hr hq') hq'
      exact .inr (session_no_stop hS)

/-- C107: the integration tests see the same session with the split servers as with the default server (C106), whatever the threads do meanwhile. -/
theorem C107_session (hs : Sane env) (st : Start Unit) (s : Duo Unit) (h : Duo.Reach env testing st s) (hi : Between s .shell)
    (hq : ∀ x ∈ handledIn (served s.log), x.1 = .shell ∧ ∀ m, Accepted env.C env.J env.auth x.2 m → TestAsks m) :
    ∃ h', s.w.hist = st.w.hist ++ h' ∧ TestSession env ((handledIn (served s.log)).map (·.2)) (eventsIn (served s.log)) s.w.count h' := by
  have hd := sound_of hs testing_sends
  rw [Duo.events_reach hd h]
  refine serial_session hs (C107_serial env hs testing testing_sends st s (test_orderly hs st s h hq) fun t => ?_) hq
  cases t with
  | shell => exact hi
  | control => exact Duo.between_unused hd h fun q hm => by have := (hq _ hm).1; cases this

/-- The state when a split kernel has handled the messages of the tests. -/
def splitTests : Duo Unit :=
  (tried.map (fun m => Split.Choice.toShell (sentTo testEnv m)) ++ [Split.Choice.toShell [lit "a"]] ++
    (List.replicate 260 [Split.Choice.shell, .control]).flatten).foldl (Duo.choose testEnv testing) (Duo.init testStart)

example : Duo.Reach testEnv testing testStart splitTests ∧ Between splitTests .shell ∧ splitTests.w.count = 2 ∧
    handledIn (served splitTests.log) = handledIn tests.log := by
  exact ⟨Duo.reach_choose _, Duo.rest_ok (by decide +kernel), by decide +kernel, by decide +kernel⟩

end Xeus
