import Verif.Server.HistoryConc
import Verif.Server.TranscriptProps
import Verif.Server.AtomicProps

/-!
# C104: the history of the split servers
-/

namespace Xeus

open Spec

variable {σ : Type}

/-- C104: at any time the history is that of the start followed by the entries of both threads, each thread's in its order; those of a thread are
one for each execute request it was to store and replied to, and perhaps that of the message it is handling, which it has replied to already. -/
theorem C104_history (env : Env) (hs : Sane env) (I : Interp σ) (hd : SendsValues I) (st : Start σ) (s : Duo σ) (h : Duo.Reach env I st s) :
    ∃ l : Chan → Hist, ∃ h, s.w.hist = st.w.hist ++ h ∧ Merge (l .shell) (l .control) h ∧ ∀ t,
      Ongoing env ((tookBy t (actsIn (served s.log))).map fun q => (t, q)) (eventsOf t (actsIn (served s.log))) (l t) ∧
      (Between s t → Ledger env ((tookBy t (actsIn (served s.log))).map fun q => (t, q)) (eventsOf t (actsIn (served s.log))) (l t)) := by
  have hc := (Split.kinv_reach (Duo.abs_reach (sound_of hs hd) h)).conc
  have hv := Duo.inv_reach (sound_of hs hd) h
  obtain ⟨l, g, h1, h2, h3⟩ := written_reach hc
  refine ⟨l, g, h1, h2, fun t => ?_⟩
  rw [served_eq]
  refine ⟨(h3 t).ongoing, fun hb => (h3 t).ledger (cinv_reach hc) ?_⟩
  cases t with
  | control =>
    have := hv.idleC hb
    show Duo.todo env I s = _
    unfold Duo.todo
    rw [this]
    cases s.calling <;> rfl
  | shell =>
    have := hv.idleS hb
    show s.sprog.inline _ = _
    rw [this]; rfl

/-- Each thread receives an execute request.  The shell thread sends its reply and does not go on before the control thread is done. -/
def Duo.execTurns : List Split.Choice :=
  [.toShell (wireOf (reqFrom "a" "m1" "execute_request" (.obj [(lit "code", .str (lit "1"))]))),
   .toControl (wireOf (reqFrom "b" "m2" "execute_request" (.obj [(lit "code", .str (lit "2"))])))] ++
  List.replicate 30 Split.Choice.shell ++ List.replicate 60 Split.Choice.control

/-- The state after it. -/
def Duo.execs : Duo Nat := Duo.execTurns.foldl (Duo.choose sampleEnv askInterp) (Duo.init 0)

/-- The state when the shell thread is done, too. -/
def Duo.execsDone : Duo Nat := (Duo.execTurns ++ List.replicate 30 Split.Choice.shell).foldl (Duo.choose sampleEnv askInterp) (Duo.init 0)

/-- One thread is in the middle of its message, the other is not. -/
example : Duo.Reach sampleEnv askInterp 0 Duo.execs ∧ SendsValues askInterp ∧ Between Duo.execs .control ∧ ¬ Between Duo.execs .shell ∧
    Duo.execs.w.hist = [⟨lit "0", lit "1", lit "2", []⟩] := by
  refine ⟨Duo.reach_choose _, askInterp_sends, ?_, ?_, by decide +kernel⟩
  · show Duo.execs.kpc ≠ .busy
    decide +kernel
  · intro h
    exact h false (by decide +kernel)

/-- The messages that were replied to, in the order of the replies. -/
def repliedTo (es : List Ev) : List (Option Json) := (repliesIn es).map fun
  | .reply _ m _ => m.body.parent.find? (lit "msg_id")
  | _ => none

/-- Finding (C104): the reply to the first request was sent before that to the second, and the entries are the other way round: sending
a reply and storing the entry are two steps. -/
theorem C104_order_witness : ∃ s, Duo.Reach sampleEnv askInterp 0 s ∧ Between s .control ∧ Between s .shell ∧
    repliedTo (allEvents (actsIn (served s.log))) = [some (.str (lit "m1")), some (.str (lit "m2"))] ∧
    s.w.hist.map (·.input) = [lit "2", lit "1"] := by
  refine ⟨Duo.execsDone, Duo.reach_choose _, ?_, ?_, by decide +kernel, by decide +kernel⟩
  · show Duo.execsDone.kpc ≠ .busy
    decide +kernel
  · have h : Duo.execsDone.spc = .sampled false := by decide +kernel
    intro r
    rw [h]
    simp

end Xeus
