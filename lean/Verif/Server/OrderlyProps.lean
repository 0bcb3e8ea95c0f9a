import Verif.Server.Orderly
import Verif.Server.HistoryProps
import Verif.Server.DuoLive
import Verif.Server.PartsProps

/-!
# C107: split servers whose threads take turns are like the default server
-/

namespace Xeus

open Spec

variable {σ : Type}

theorem Duo.both_done {env : Env} {I : Interp σ} (hd : Duo.Sound env I) {st : Start σ} {s : Duo σ} (h : Duo.Reach env I st s)
    (hi : ∀ t, Between s t) (t : Chan) : (Duo.abs env I s).c.prog t = .done (.ok ()) := by
  have hk := Split.kinv_reach (Duo.abs_reach hd h)
  cases t with
  | control => exact hk.idleC (hi .control)
  | shell => exact hk.idleS ((Duo.between_abs s).2 (hi .shell))

/-- C107: whenever no thread is handling a message, the kernel is in a state reached by handling the messages received so far one after
the other, without interruption, as it is in the default server (C78). -/
theorem C107_serial (env : Env) (hs : Sane env) (I : Interp σ) (hd : SendsValues I) (st : Start σ) (s : Duo σ) (h : InTurn env I st s)
    (hi : ∀ t, Between s t) : Serial env I st (handledIn (served s.log)) (arrivedOn .shell (served s.log)) s.w := by
  have := (Duo.orderly_inv (sound_of hs hd) h).settled (Duo.both_done (sound_of hs hd) (Duo.orderly_reach h) hi)
  rw [served_eq]
  exact this

/-- C107: the replies are those of the default server (C79). -/
theorem C107_account (env : Env) (hs : Sane env) (I : Interp σ) (hd : SendsValues I) (st : Start σ) (s : Duo σ) (h : InTurn env I st s)
    (hi : ∀ t, Between s t) :
    Account env (handledIn (served s.log)) (takenFrom .shell (served s.log)) (repliesIn (eventsIn (served s.log))) := by
  obtain ⟨tk, h1, h2⟩ := serial_account hs (C107_serial env hs I hd st s h hi)
  have hq : takenFrom .shell (evsOf s.log) ++ s.w.shellQ = arrivedOn .shell (evsOf s.log) :=
    (Split.qinv_reach (Duo.abs_reach (sound_of hs hd) (Duo.orderly_reach h))).shell
  rw [Duo.events_reach (sound_of hs hd) (Duo.orderly_reach h)]
  rw [served_eq] at *
  rw [← hq] at h1
  rw [← List.append_cancel_right h1]
  exact h2

/-- C107: the executions are numbered 1, 2, … , whichever threads handled the requests (C17). -/
theorem C107_count (env : Env) (hs : Sane env) (I : Interp σ) (hd : SendsValues I) (st : Start σ) (s : Duo σ) (h : InTurn env I st s)
    (hi : ∀ t, Between s t) (n : Nat) (hn : Tally env ((handledIn (served s.log)).map fun x => (x.2, x.1)) n) :
    s.w.count = n ∧ shownCounts s.w.out = (List.range n).map fun i : Nat => 1 + (i : Int) :=
  (serial_count hs (C107_serial env hs I hd st s h hi) n hn).2

/-- C107: all that was done, by both threads together, is the transcript of the messages (C102). -/
theorem C107_transcript (env : Env) (hs : Sane env) (I : Interp σ) (hd : SendsValues I) (st : Start σ) (s : Duo σ) (h : InTurn env I st s)
    (hi : ∀ t, Between s t) : Transcript env ((handledIn (served s.log)).map fun x => (x.2, x.1)) (eventsIn (served s.log)) := by
  rw [Duo.events_reach (sound_of hs hd) (Duo.orderly_reach h)]
  exact serial_transcript hs (C107_serial env hs I hd st s h hi)

/-- C107: the history is in the order of the replies (C103). -/
theorem C107_history (env : Env) (hs : Sane env) (I : Interp σ) (hd : SendsValues I) (st : Start σ) (s : Duo σ) (h : InTurn env I st s)
    (hi : ∀ t, Between s t) : ∃ l, s.w.hist = st.w.hist ++ l ∧ Ledger env (handledIn (served s.log)) (eventsIn (served s.log)) l := by
  rw [Duo.events_reach (sound_of hs hd) (Duo.orderly_reach h)]
  exact serial_ledger hs (C107_serial env hs I hd st s h hi)

/-- C107: as long as the clients use one of the two channels only and no stop is requested, the threads take turns. -/
theorem C107_one_channel (env : Env) (hs : Sane env) (I : Interp σ) (hd : SendsValues I) (st : Start σ) (s : Duo σ)
    (h : Duo.Reach env I st s) (t : Chan) (ht : ∀ x ∈ handledIn (served s.log), x.1 = t) (hn : ¬ stopAsked s.w) : InTurn env I st s := by
  induction h with
  | init => exact .start
  | @step s s' a hr hstep ih =>
    have hn' : ¬ stopAsked s.w := fun h => hn (Duo.stop_step (sound_of hs hd) hr hstep h)
    refine .step (ih (fun x hx => ht x ((Duo.handled_step hstep).subset hx)) hn') hstep ?_ (.inr hn')
    have key : ∀ t', t' ≠ t → Between s' t' := fun t' hne =>
      Duo.between_unused (sound_of hs hd) (hr.step hstep) fun q hq => hne (ht _ hq)
    cases t with
    | shell => exact .inl (key .control (by simp))
    | control => exact .inr (key .shell (by simp))

/-! ## Samples -/

namespace Duo

/-- No thread is handling a message, as a Boolean. -/
def rest (s : Duo σ) : Chan → Bool
  | .control => s.kpc ≠ .busy
  | .shell => match s.spc with
    | .busy _ => false
    | _ => true

theorem rest_ok {s : Duo σ} {t : Chan} (h : rest s t = true) : Between s t := by
  cases t with
  | control =>
    show s.kpc ≠ .busy
    simpa [rest] using h
  | shell =>
    intro r hr
    simp [rest, hr] at h

/-- Do the threads take turns? -/
def takesTurns (env : Env) (I : Interp σ) : Duo σ → List Split.Choice → Bool
  | _, [] => true
  | s, c :: cs =>
    let s' := choose env I s c
    (rest s' .control || rest s' .shell) && (decide (handledIn (served s'.log) = handledIn (served s.log)) || decide (Ev.stop ∉ s.w.out)) &&
      takesTurns env I s' cs

theorem orderly_choose {env : Env} {I : Interp σ} {st : Start σ} (cs : List Split.Choice) (hc : takesTurns env I (init st) cs = true) :
    InTurn env I st (cs.foldl (choose env I) (init st)) := by
  suffices h : ∀ (s : Duo σ), InTurn env I st s → (∀ i, s.hb.inq i = []) → takesTurns env I s cs = true →
      InTurn env I st (cs.foldl (choose env I) s) from h _ .start (fun _ => rfl) hc
  clear hc
  induction cs with
  | nil => intro s h _ _; exact h
  | cons c cs ih =>
    intro s h he hc
    simp only [takesTurns, Bool.and_eq_true, Bool.or_eq_true, decide_eq_true_eq] at hc
    obtain ⟨⟨c1, c2⟩, c3⟩ := hc
    obtain ⟨h1, h2⟩ := choose_one (env := env) (I := I) s c he
    refine ih _ ?_ h2 c3
    rcases h1 with h1 | ⟨a, h1⟩
    · rw [h1]; exact h
    · exact h.step h1 (c1.imp rest_ok rest_ok) c2

/-- Execute requests on both channels, a debug request with internal requests, and a shutdown request, one after the other. -/
def turns : List Split.Choice :=
  [.toShell (wireOf (reqFrom "a" "m1" "execute_request" (.obj [(lit "code", .str (lit "1"))])))] ++ List.replicate 60 Split.Choice.shell ++
  [.toControl (wireOf (reqFrom "b" "m2" "execute_request" (.obj [(lit "code", .str (lit "2"))])))] ++ List.replicate 60 Split.Choice.control ++
  [.toControl (wireOf (reqFrom "b" "m3" "debug_request" (.obj [(lit "command", .str (lit "inspect"))])))] ++
  (List.replicate 60 [Split.Choice.control, .shell]).flatten ++
  [.toShell (wireOf (reqFrom "a" "m4" "execute_request" (.obj [(lit "code", .str (lit "3"))])))] ++ List.replicate 60 Split.Choice.shell ++
  [.toControl (wireOf (reqFrom "b" "m5" "shutdown_request" (.obj [(lit "restart", .bool false)])))] ++ List.replicate 60 Split.Choice.control

/-- The state after them. -/
def turned : Duo Nat := turns.foldl (choose sampleEnv askInterp) (init 0)

end Duo

/-- Five messages, three executions, a stop. -/
theorem Duo.turned_orderly : InTurn sampleEnv askInterp 0 Duo.turned ∧ (∀ t, Between Duo.turned t) ∧
    (handledIn (served Duo.turned.log)).map (·.1) = [.shell, .control, .control, .shell, .control] ∧ stopAsked Duo.turned.w ∧
    (exchanges Duo.turned.log).length = 4 ∧ Duo.turned.w.count = 3 ∧ Duo.turned.w.hist.map (·.input) = [lit "1", lit "2", lit "3"] := by
  refine ⟨Duo.orderly_choose _ (by decide +kernel), fun t => Duo.rest_ok ?_, by decide +kernel, by unfold stopAsked; decide +kernel,
    by decide +kernel, by decide +kernel, by decide +kernel⟩
  cases t <;> decide +kernel

example : SendsValues askInterp ∧ InTurn sampleEnv askInterp 0 Duo.turned ∧ ∀ t, Between Duo.turned t :=
  ⟨askInterp_sends, Duo.turned_orderly.1, Duo.turned_orderly.2.1⟩

/-- Overlap is what makes the difference: two execute requests handled at the same time (C100) leave the kernel in a state that handling the
messages one after the other cannot lead to. -/
theorem C107_overlap_witness : ∃ s : Duo Nat, Duo.Reach sampleEnv sampleInterp 0 s ∧ (∀ t, Between s t) ∧ ¬ stopAsked s.w ∧
    ∀ as, ¬ Serial sampleEnv sampleInterp 0 (handledIn (served s.log)) as s.w := by
  refine ⟨race, Duo.reach_choose raceTurns, fun t => Duo.rest_ok (by cases t <;> decide +kernel), by unfold stopAsked; decide +kernel, ?_⟩
  intro as h
  obtain ⟨n, hn⟩ := C17_tally_exists sampleEnv ((handledIn (served race.log)).map fun x => (x.2, x.1))
  obtain ⟨_, h1, h2⟩ := serial_count sampleEnv_sane h n hn
  have h3 : shownCounts race.w.out = [2, 2] := by decide +kernel
  have h4 : race.w.count = 2 := by decide +kernel
  rw [h4] at h1
  obtain rfl : n = 2 := by omega
  rw [h3] at h2
  revert h2
  decide

end Xeus
