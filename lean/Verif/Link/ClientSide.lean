import Verif.Link.Wp
import Verif.Dap.Lemmas

/-!
# The client's side of the exchanges: lemmas

No property statements here.
-/

namespace Xeus.Link

open Xeus Xeus.Spec K Link.Spec

variable {σ : Type} {cl : Client σ}

/-- What is known: `m_parent_header`, and a request received that has not been sent to the adapter yet. -/
structure Cli where
  h : Str
  pend : Option Str

def COk (g : Cli) (s : Dap σ) : Prop := s.parentHeader = g.h

/-- Not part of the exchanges with the debugger. -/
def Own : DapEv → Prop
  | .tcp _ | .pub _ _ | .callback _ | .event _ => True
  | .reply _ | .header _ => False

/-- The parent that an event must have. -/
def parentOf (J : Codec) (h : Str) : Option Json := if h = [] then some (.obj []) else J.parse h

/-- Own entries, the events being attributed to the header `h`. -/
def OwnAll (J : Codec) (h : Str) (ext : List DapEv) : Prop :=
  ∀ e ∈ ext, Own e ∧ ∀ m w, e = .pub m w → parentOf J h = some m.body.parent

/-- What becomes of a request received. -/
inductive Pend : Option Str → List DapEv → Option Str → Prop
  | none {ext} : Pend .none ext .none
  | keep {x} : Pend x [] x
  | sent {m} : Pend (some m) [.tcp m] .none

/-- What an access does. -/
inductive CMv (cl : Client σ) : Cli → Dap σ → Dap σ → Cli → Prop
  | own {g s s' pend} (ext : List DapEv) : s'.parentHeader = s.parentHeader → s'.hdrIn = s.hdrIn → s'.ctlIn = s.ctlIn →
      s'.replyDue = s.replyDue → s'.out = s.out ++ ext → OwnAll cl.env.J g.h ext → Pend g.pend ext pend →
      CMv cl g s s' ⟨g.h, pend⟩
  | header {g s s'} (x : Str) : g.pend = none → s'.parentHeader = x → s.hdrIn = x :: s'.hdrIn → s'.ctlIn = s.ctlIn →
      s'.replyDue = s.replyDue → s'.out = s.out ++ [.header x] → CMv cl g s s' ⟨x, none⟩
  | recv {g s s'} (m : Str) : g.pend = none → s'.parentHeader = s.parentHeader → s'.hdrIn = s.hdrIn → s.ctlIn = m :: s'.ctlIn →
      s.replyDue = false → s'.replyDue = true → s'.out = s.out → CMv cl g s s' ⟨g.h, some m⟩
  | send {g s s'} (b : Str) : g.pend = none → s'.parentHeader = s.parentHeader → s'.hdrIn = s.hdrIn → s'.ctlIn = s.ctlIn →
      s.replyDue = true → s'.replyDue = false → s'.out = s.out ++ [.reply b] → CMv cl g s s' ⟨g.h, none⟩

abbrev CWp {α : Type} (cl : Client σ) (Q : Cli → Res α → Prop) (p : K (Dap σ) α) (g : Cli) : Prop := Wp COk (CMv cl) Q p g

theorem ownAll_nil (J : Codec) (h : Str) : OwnAll J h [] := fun _ he => by cases he

theorem cmv_same {g : Cli} {s s' : Dap σ} (h1 : s'.parentHeader = s.parentHeader) (h2 : s'.hdrIn = s.hdrIn)
    (h3 : s'.ctlIn = s.ctlIn) (h4 : s'.replyDue = s.replyDue) (h5 : s'.out = s.out) : CMv cl g s s' g :=
  .own [] h1 h2 h3 h4 (by simp [h5]) (ownAll_nil _ _) .keep

theorem cmv_refl {g : Cli} (s : Dap σ) (_ : COk g s) : CMv cl g s s g := cmv_same rfl rfl rfl rfl rfl

/-! ## Programs that leave no request waiting -/

/-- The outcome whatever happened: no request waits. -/
def Free {α : Type} (g : Cli) (_ : Res α) : Prop := g.pend = none

def Tame (cl : Client σ) {α : Type} (p : K (Dap σ) α) : Prop := ∀ h, CWp cl Free p ⟨h, none⟩

variable {α β : Type}

theorem Tame.bind {p : K (Dap σ) α} {q : α → K (Dap σ) β} (hp : Tame cl p) (hq : ∀ a, Tame cl (q a)) : Tame cl (p >>= q) := by
  intro h
  refine Wp.bind ((hp h).mono fun g r hg => ?_)
  obtain ⟨h', pend⟩ := g
  cases hg
  cases r with
  | ok a => exact hq a h'
  | exc e => rfl
  | ub w => rfl
  | hang => rfl

theorem Tame.done (r : Res α) : Tame cl (K.done r : K (Dap σ) α) := fun _ => rfl
theorem Tame.ofRes (r : Res α) : Tame cl (K.ofRes r : K (Dap σ) α) := fun _ => rfl
theorem Tame.pure (a : α) : Tame cl (Pure.pure a : K (Dap σ) α) := fun _ => rfl

theorem Tame.attempt {p : K (Dap σ) α} (hp : Tame cl p) : Tame cl p.attempt := by
  intro h
  refine Wp.attempt ((hp h).mono fun g r hg => ?_)
  cases r <;> exact hg

theorem Tame.read (f : Dap σ → α) : Tame cl (K.read f) := fun _ => Wp.read cmv_refl fun _ _ => rfl

/-- An access that has nothing to do with the exchanges. -/
theorem Tame.lift {f : Dap σ → Res α × Dap σ}
    (h : ∀ s, ∃ ext, (f s).2.parentHeader = s.parentHeader ∧ (f s).2.hdrIn = s.hdrIn ∧ (f s).2.ctlIn = s.ctlIn ∧
      (f s).2.replyDue = s.replyDue ∧ (f s).2.out = s.out ++ ext ∧ ∀ e ∈ ext, Own e ∧ ∀ m w, e ≠ .pub m w) :
    Tame cl (K.lift f) := by
  intro hd
  refine Wp.lift fun s _ _ => ?_
  obtain ⟨ext, h1, h2, h3, h4, h5, h6⟩ := h s
  exact ⟨⟨hd, none⟩, .own (g := ⟨hd, none⟩) ext h1 h2 h3 h4 h5 (fun e he => ⟨(h6 e he).1, fun m w hm => absurd hm ((h6 e he).2 m w)⟩) .none, rfl⟩

theorem Tame.silent {f : Dap σ → Res α × Dap σ}
    (h : ∀ s, (f s).2.parentHeader = s.parentHeader ∧ (f s).2.hdrIn = s.hdrIn ∧ (f s).2.ctlIn = s.ctlIn ∧
      (f s).2.replyDue = s.replyDue ∧ (f s).2.out = s.out) : Tame cl (K.lift f) :=
  Tame.lift fun s => by
    obtain ⟨h1, h2, h3, h4, h5⟩ := h s
    exact ⟨[], h1, h2, h3, h4, by simp [h5], fun _ he => by cases he⟩

theorem Tame.modify {f : Dap σ → Dap σ}
    (h : ∀ s, (f s).parentHeader = s.parentHeader ∧ (f s).hdrIn = s.hdrIn ∧ (f s).ctlIn = s.ctlIn ∧
      (f s).replyDue = s.replyDue ∧ (f s).out = s.out) : Tame cl (K.modify f) := Tame.silent h

theorem tame_emit_tcp (b : Str) : Tame cl (dapEmit (σ := σ) (.tcp b)) :=
  Tame.lift fun s => ⟨[.tcp b], rfl, rfl, rfl, rfl, rfl, fun e he => by rw [List.mem_singleton.1 he]; exact ⟨trivial, fun _ _ h => by cases h⟩⟩

theorem tame_send (b : Str) : Tame cl (controllerSend (σ := σ) b) := by
  intro h
  refine Wp.lift fun s _ _ => ?_
  by_cases hd : s.replyDue = true
  · refine ⟨⟨h, none⟩, ?_, rfl⟩
    simp only [hd, if_true]
    exact .send (g := ⟨h, none⟩) b rfl rfl rfl rfl hd rfl rfl
  · refine ⟨⟨h, none⟩, ?_, rfl⟩
    simp only [hd, if_false, Bool.false_eq_true]
    exact cmv_same rfl rfl rfl rfl rfl

theorem tame_forward (j : Json) : Tame cl (forwardEvent cl j) := by
  refine Tame.bind (Tame.lift fun s => ⟨[.callback j], rfl, rfl, rfl, rfl, rfl, fun e he => by
    rw [List.mem_singleton.1 he]; exact ⟨trivial, fun _ _ h => by cases h⟩⟩) fun _ => ?_
  refine Tame.bind (Tame.silent fun s => ⟨rfl, rfl, rfl, rfl, rfl⟩) fun header => ?_
  intro h
  refine Wp.bind (Wp.readR cmv_refl fun s hs hh => ?_)
  cases hp : dapParent cl s with
  | exc e => exact rfl
  | ub w => exact rfl
  | hang => exact absurd hp hh
  | ok parent =>
    have hpar : parentOf cl.env.J h = some parent := by
      have hs : s.parentHeader = h := hs
      simp only [dapParent, hs] at hp
      unfold parentOf
      cases h with
      | nil => simpa using hp
      | cons c l =>
        simp only [List.isEmpty_cons, Bool.false_eq_true, if_false, Codec.parseZmq] at hp
        simp only [reduceCtorEq, if_false]
        cases hj : cl.env.J.parse (c :: l) with
        | none => simp [hj] at hp
        | some x => simp [hj] at hp; rw [hp]
    refine Wp.bind (Wp.ofRes ?_)
    cases serializePub cl.env.C cl.env.J cl.env.auth .strict ⟨lit "debug_event", ⟨header, parent, .obj [], j, []⟩⟩ with
    | exc e => exact rfl
    | ub w => exact rfl
    | hang => exact rfl
    | ok wire =>
      refine Wp.modify (g' := ⟨h, none⟩) (fun s _ => ?_) rfl
      refine .own (g := ⟨h, none⟩) [.pub _ wire] rfl rfl rfl rfl rfl ?_ .none
      intro e he
      rw [List.mem_singleton.1 he]
      exact ⟨trivial, fun m w hm => by cases hm; exact hpar⟩

theorem tame_request (j : Json) : Tame cl (sendDapRequest cl j) := Tame.bind (Tame.ofRes _) fun _ => tame_emit_tcp _

theorem waitLoop_silent (cond : Json → Res Bool) (n : Nat) (s : Dap σ) :
    let s' := (waitLoop cl cond n s).2
    s'.parentHeader = s.parentHeader ∧ s'.hdrIn = s.hdrIn ∧ s'.ctlIn = s.ctlIn ∧ s'.replyDue = s.replyDue ∧ s'.out = s.out := by
  induction n generalizing s with
  | zero => exact ⟨rfl, rfl, rfl, rfl, rfl⟩
  | succ n ih =>
    simp only [waitLoop]
    split
    · split
      · exact ⟨rfl, rfl, rfl, rfl, rfl⟩
      · obtain ⟨h1, h2, h3, h4, h5⟩ := ih (afterDrain s _ _ _)
        exact ⟨h1, h2, h3, h4, h5⟩
      all_goals exact ⟨rfl, rfl, rfl, rfl, rfl⟩
    all_goals exact ⟨rfl, rfl, rfl, rfl, rfl⟩

theorem tame_wait (cond : Json → Res Bool) : Tame cl (waitForMessage cl cond) := by
  refine Tame.silent fun s => ?_
  split
  · exact ⟨rfl, rfl, rfl, rfl, rfl⟩
  · exact waitLoop_silent cond _ s
  all_goals exact ⟨rfl, rfl, rfl, rfl, rfl⟩

theorem tame_sem (o : DapOp) : Tame cl (dapSem cl o) := by
  cases o with
  | forward j => exact Tame.bind (tame_forward j) fun _ => Tame.pure _
  | request j => exact Tame.bind (tame_request j) fun _ => Tame.pure _
  | wait cond => exact Tame.bind (tame_wait cond) fun _ => Tame.pure _
  | parentHeader => exact Tame.read _

theorem tame_exec (p : Prog σ DapOp α) : Tame cl (dapExec cl p) := by
  induction p with
  | ret a => exact Tame.pure a
  | throw e => exact Tame.done _
  | ub w => exact Tame.ofRes _
  | hang => exact Tame.ofRes _
  | get k ih => exact Tame.bind (Tame.read _) fun s => ih s
  | set st k ih => exact Tame.bind (Tame.modify fun _ => ⟨rfl, rfl, rfl, rfl, rfl⟩) fun _ => ih
  | call o k ih => exact Tame.bind (tame_sem o).attempt fun r => ih r

theorem tame_init : Tame cl (handleInitSequence cl) :=
  Tame.bind (tame_wait _) fun _ => Tame.bind (Tame.ofRes _) fun _ => Tame.bind (tame_request _) fun _ =>
    Tame.bind (tame_wait _) fun _ => Tame.bind (tame_wait _) fun _ => Tame.bind (tame_forward _) fun _ =>
    Tame.bind (Tame.ofRes _) fun _ => tame_send _

theorem tame_attachTail (b : Bool) : Tame cl (attachTail cl b) := by
  cases b
  · exact Tame.pure ()
  · exact Tame.bind tame_init fun _ => Tame.modify fun _ => ⟨rfl, rfl, rfl, rfl, rfl⟩

theorem tame_process (raw : Str) : Tame cl (processOne cl raw) := by
  refine Tame.bind (Tame.bind (Tame.ofRes _) fun j => Tame.bind (Tame.ofRes _) fun type => ?_) fun _ => Tame.silent fun s => ?_
  · split
    · refine Tame.bind (Tame.lift fun s => ⟨[.event j], rfl, rfl, rfl, rfl, rfl, fun e he => ?_⟩) fun _ => tame_exec _
      rw [List.mem_singleton.1 he]
      exact ⟨trivial, fun _ _ h => by cases h⟩
    · exact Tame.bind (Tame.ofRes _) fun _ => Tame.bind (Tame.modify fun _ => ⟨rfl, rfl, rfl, rfl, rfl⟩) fun _ =>
        Tame.bind (tame_send _) fun _ => Tame.modify fun _ => ⟨rfl, rfl, rfl, rfl, rfl⟩
  · cases s.queue <;> exact ⟨rfl, rfl, rfl, rfl, rfl⟩

theorem tame_read : Tame cl (readMessages (σ := σ)) := by
  refine Tame.silent fun s => ?_
  cases handleTcp s.queue s.tcpIn <;> exact ⟨rfl, rfl, rfl, rfl, rfl⟩

theorem tame_header : Tame cl (handleHeader (σ := σ)) := by
  intro h
  refine Wp.lift fun s _ hh => ?_
  rcases hq : s.hdrIn with _ | ⟨x, r⟩
  · simp [hq] at hh
  · exact ⟨⟨x, none⟩, .header (g := ⟨h, none⟩) x rfl rfl hq rfl rfl rfl, rfl⟩

/-! ## The request socket -/

/-- No request waits unless it has failed. -/
def Done (g : Cli) (r : Res Unit) : Prop := r = .ok () → g.pend = none

theorem Tame.toDone {p : K (Dap σ) Unit} (hp : Tame cl p) {h : Str} : CWp cl Done p ⟨h, none⟩ :=
  (hp h).mono fun (g : Cli) (r : Res Unit) (hg : Free g r) (_ : r = .ok ()) => hg

theorem cwp_control (h : Str) : CWp cl Done (handleControl cl) ⟨h, none⟩ := by
  refine Wp.bind (Wp.lift fun s _ hh => ?_)
  by_cases hd : s.replyDue = true
  · refine ⟨⟨h, none⟩, ?_, ?_⟩
    · simp only [hd, if_true]; exact cmv_same rfl rfl rfl rfl rfl
    · simp only [hd, if_true]; exact fun h => by cases h
  · simp only [hd, if_false, Bool.false_eq_true] at hh ⊢
    rcases hq : s.ctlIn with _ | ⟨raw, r⟩
    · simp [hq] at hh
    · refine ⟨⟨h, some raw⟩, .recv (g := ⟨h, none⟩) raw rfl rfl rfl hq (by simpa using hd) rfl rfl, ?_⟩
      have send : ∀ p : Unit → K (Dap σ) Unit, (∀ u, Tame cl (p u)) →
          CWp cl Done (dapEmit (.tcp raw) >>= p) ⟨h, some raw⟩ := by
        intro p hp
        refine Wp.bind (Wp.modify (g' := ⟨h, none⟩) (fun s _ => ?_) (hp ()).toDone)
        refine .own (g := ⟨h, some raw⟩) [.tcp raw] rfl rfl rfl rfl rfl ?_ .sent
        intro e he
        rw [List.mem_singleton.1 he]
        exact ⟨trivial, fun _ _ h => by cases h⟩
      refine Wp.bind (Wp.read cmv_refl fun s _ => ?_)
      show CWp cl Done (if s.waitAttach then _ else _) _
      split
      · refine Wp.bind (Wp.ofRes ?_)
        cases controlText raw with
        | exc e => exact fun h => by cases h
        | ub w => exact fun h => by cases h
        | hang => exact fun h => by cases h
        | ok text =>
          refine Wp.bind (Wp.ofRes ?_)
          cases cl.env.J.parseZmq text with
          | exc e => exact fun h => by cases h
          | ub w => exact fun h => by cases h
          | hang => exact fun h => by cases h
          | ok j => exact send _ fun _ => Tame.bind (Tame.ofRes _) fun _ => tame_attachTail _
      · refine Wp.modify (g' := ⟨h, none⟩) (fun s _ => ?_) fun _ => rfl
        refine .own (g := ⟨h, some raw⟩) [.tcp raw] rfl rfl rfl rfl rfl ?_ .sent
        intro e he
        rw [List.mem_singleton.1 he]
        exact ⟨trivial, fun _ _ h => by cases h⟩

theorem cwp_bind_done {p : K (Dap σ) Unit} {q : Unit → K (Dap σ) Unit} {h : Str} (hp : CWp cl Done p ⟨h, none⟩)
    (hq : ∀ h, CWp cl Done (q ()) ⟨h, none⟩) : CWp cl Done (p >>= q) ⟨h, none⟩ := by
  refine Wp.bind (hp.mono fun g r hg => ?_)
  cases r with
  | ok u =>
    obtain ⟨h', pend⟩ := g
    cases (hg rfl : pend = none)
    exact hq h'
  | exc e => exact fun h => by cases h
  | ub w => exact fun h => by cases h
  | hang => exact fun h => by cases h

theorem cwp_afterPoll (a b c : Bool) (h : Str) : CWp cl Done (afterPoll cl a b c) ⟨h, none⟩ := by
  have nothing : ∀ h, CWp cl Done (pure () : K (Dap σ) Unit) ⟨h, none⟩ := fun _ _ => rfl
  refine cwp_bind_done ?_ fun h => cwp_bind_done ?_ fun h => ?_
  · cases a
    · exact nothing h
    · exact tame_header.toDone
  · cases b
    · exact nothing h
    · exact cwp_control h
  · cases c
    · exact nothing h
    · exact tame_read.toDone

end Xeus.Link
