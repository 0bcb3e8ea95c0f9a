import Verif.Server.Transcript
import Verif.Server.SplitProps
import Verif.Server.DuoProps

/-!
# C102: what a running server sends
-/

namespace Xeus

open Spec

variable {σ : Type}

/-! ## C102: the default server -/

/-- C102: while no message is being handled, everything the handlers of the default server did is, in this order, one block for
each accepted message and nothing for the refused ones. -/
theorem C102_transcript (env : Env) (hs : Sane env) (I : Interp σ) (st : Start σ) (s : Main σ) (h : Main.Reach env I st s) (hi : Idle s) :
    Transcript env ((handledIn s.log).map fun x => (x.2, x.1)) (eventsIn s.log) := by
  rw [Main.events_reach h]
  exact serial_transcript hs (C78_serial env I st s h hi)

/-- Four messages were handled. -/
example : ∃ s, Main.Reach sampleEnv sampleInterp 0 s ∧ Idle s ∧ (handledIn s.log).length = 4 ∧ (statusesIn (eventsIn s.log)).length = 8 :=
  ⟨Main.day, Main.day_reach, by
    have h : Main.day.pc = .exited := by decide +kernel
    exact ⟨fun rs => by rw [h]; simp, by rw [h]; simp⟩, by decide +kernel, by decide +kernel⟩

/-- C102: at any time it is that, or the beginning of the block of the last message is there in addition. -/
theorem C102_progress (env : Env) (hs : Sane env) (I : Interp σ) (st : Start σ) (s : Main σ) (h : Main.Reach env I st s) :
    Progress env ((handledIn s.log).map fun x => (x.2, x.1)) (eventsIn s.log) := Main.main_progress hs h

/-- A message in hand. -/
example : ∃ s, Main.Reach sampleEnv sampleInterp 0 s ∧ s.pc = .shell ∧ (handledIn s.log).length = 2 ∧
    (statusesIn (eventsIn s.log)).length = 3 :=
  ⟨(Main.countTurns.take 55).foldl (Main.choose sampleEnv sampleInterp) (Main.init 0), Main.reach_choose _, by decide +kernel,
    by decide +kernel, by decide +kernel⟩

/-- C102: what clients got from the iopub socket of the default server, as long as nothing was dropped, is the publications of a first part of what
the handlers did, and the status notifications among them alternate, busy and idle being about the same message. -/
theorem C102_client (env : Env) (hs : Sane env) (I : Interp σ) (st : Start σ) (s : Main σ) (h : Main.Reach env I st s) (hd : s.dropped = 0) :
    ∃ o, o <+: eventsIn s.log ∧ wiresOf o = s.pub.passedOf () ∧ Alternates (statusesIn o) := by
  obtain ⟨o, h1, h2⟩ := prefix_pubsOf (wiresOf_eq _ ▸ C48_prefix env I st s h hd)
  rw [← wiresOf_eq] at h2
  rw [← Main.events_reach h] at h1
  refine ⟨o, h1, h2, alternates_prefix (alternates_progress (C102_progress env hs I st s h)) ?_⟩
  obtain ⟨r, hr⟩ := h1
  rw [← hr, statusesIn_append]
  exact List.prefix_append _ _

/-- Seven of nine publications were passed on. -/
example : Main.day.dropped = 0 ∧ (Main.day.pub.passedOf ()).length = 7 ∧ (statusesIn ((eventsIn Main.day.log))).length = 8 := by
  decide +kernel

/-! ## C103: the history -/

/-- C103: while no message is being handled, the history is that of the start and one entry for each execute request that was to be stored and
was replied to, in the order in which they were handled. -/
theorem C103_history (env : Env) (hs : Sane env) (I : Interp σ) (st : Start σ) (s : Main σ) (h : Main.Reach env I st s) (hi : Idle s) :
    ∃ l, s.c.w.hist = st.w.hist ++ l ∧ Ledger env (handledIn s.log) (eventsIn s.log) l := by
  rw [Main.events_reach h]
  exact serial_ledger hs (C78_serial env I st s h hi)

/-- Two execute requests were stored, and a request of another kind handled between them.  Finding (C103): the line number of an entry is not the
number of the execution. -/
theorem C103_line_witness : ∃ s, Main.Reach sampleEnv sampleInterp 0 s ∧ s.pc = .polling ∧ (handledIn s.log).length = 3 ∧
    shownCounts (eventsIn s.log) = [1, 2] ∧ s.c.w.hist = [⟨lit "0", lit "1", lit "1", []⟩, ⟨lit "0", lit "1", lit "2", []⟩] :=
  ⟨Main.countTurns.foldl (Main.choose sampleEnv sampleInterp) (Main.init 0), Main.reach_choose _, by decide +kernel,
    by decide +kernel, by decide +kernel, by decide +kernel⟩

/-! ## C102: the split servers -/

/-- C102: what a thread of a split server did at any time is a transcript of the messages it received, with the beginning of the block of the
last one, whatever the other thread does. -/
theorem C102_thread (env : Env) (hs : Sane env) (I : Interp σ) (hd : SendsValues I) (st : Start σ) (s : Duo σ) (h : Duo.Reach env I st s) (t : Chan) :
    Progress env ((tookBy t (actsIn (served s.log))).map fun q => (q, t)) (eventsOf t (actsIn (served s.log))) := by
  rw [served_eq]
  exact progress_reach (s := (Duo.abs env I s).c) (Split.kinv_reach (Duo.abs_reach (sound_of hs hd) h)).conc t

/-- Both threads received messages. -/
example : Duo.Reach sampleEnv askInterp 0 Duo.day ∧ SendsValues askInterp ∧ (tookBy .control (actsIn (served Duo.day.log))).length = 3 ∧
    (tookBy .shell (actsIn (served Duo.day.log))).length = 2 ∧ (statusesIn (eventsOf .control (actsIn (served Duo.day.log)))).length = 6 :=
  ⟨Duo.reach_choose _, askInterp_sends, by decide +kernel, by decide +kernel, by decide +kernel⟩

/-- C102: what clients got from either socket for publications of a split server, as long as nothing was dropped on it, is the publications through it of a
first part of what both threads did, and the status notifications among them alternate. -/
theorem C102_socket (env : Env) (hs : Sane env) (I : Interp σ) (hd : SendsValues I) (st : Start σ) (s : Duo σ) (h : Duo.Reach env I st s) (k : Chan)
    (hk : s.dropped k = 0) :
    ∃ o, o <+: allEvents (actsIn (served s.log)) ∧ wiresOn k o = s.pub.passedOf k ∧
      Alternates (statusesIn (o.filter (throughSocket k))) := by
  have hr := Duo.abs_reach (sound_of hs hd) h
  have hc := (Split.kinv_reach hr).conc
  have h1 := (C48_split env I st _ hr k).2 hk
  have h2 : s.pub.passedOf k <+: pubsOn k (Duo.abs env I s).c.w.out := ⟨_, by rw [← wiresOn_eq, ← h1, List.append_assoc]; rfl⟩
  obtain ⟨o, h3, h4⟩ := prefix_pubsOn h2
  have h5 : allEvents (actsIn (served s.log)) = (Duo.abs env I s).c.w.out := by rw [served_eq]; exact out_reach hc
  rw [h5]
  exact ⟨o, h3, by rw [wiresOn_eq]; exact h4, alternates_prefix (socket_alternates hc k) (prefix_filter h3)⟩

example : Duo.Reach sampleEnv askInterp 0 Duo.day ∧ Duo.day.dropped .control = 0 ∧ Duo.day.dropped .shell = 0 ∧
    (Duo.day.pub.passedOf .control).length = 7 ∧ (Duo.day.pub.passedOf .shell).length = 6 :=
  ⟨Duo.reach_choose _, by decide +kernel, by decide +kernel, by decide +kernel, by decide +kernel⟩

/-- Finding (C102): taken together, the notifications of both threads need not alternate: one thread says idle while the other is
busy. -/
theorem C102_mixed_witness : ∃ s, CReach sampleEnv failInterp 0 s ∧ ¬ Alternates (statusesIn (allEvents s.log)) := by
  refine ⟨turned, turned_reach, ?_⟩
  have h : (statusesIn (allEvents turned.log)).map (·.1) = [stateIs "busy", stateIs "busy", stateIs "idle", stateIs "idle"] := by
    decide +kernel
  intro ha
  generalize statusesIn (allEvents turned.log) = l at h ha
  cases ha with
  | nil => cases h
  | busy p => cases h
  | pair p _ =>
    simp only [List.map_cons, List.cons.injEq] at h
    exact absurd h.2.1 (by decide)

end Xeus
