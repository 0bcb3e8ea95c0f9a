import Verif.KernelConc.AnswerInv
import Verif.KernelConc.Props
import Verif.Server.Answers
import Verif.Server.AtomicProps

/-!
# Replies under parallel handling: the properties
-/

namespace Xeus

open Spec K

variable {σ : Type}

/-- C80: under every interleaving, once a thread has finished a message, the replies it sent meanwhile are those described by
`Replies`: at most one to the message, of the right type, with its identities and its header, and then one to each
message it aborted. -/
theorem C80_account (env : Env) (hs : Sane env) (I : Interp σ) (st : Start σ) (s : Conc σ) (h : CReach env I st s) (t : Chan)
    (q : Multipart) (seg : List Act) (ho : Over s t q seg) : ∃ own, Replies env t q seg own := by
  obtain ⟨own, h1, _⟩ := ((ainv_run (H := fun _ _ => False) hs
    (CRun.mono (run_of_reach h) fun _ _ _ _ hf => hf.elim)).over ho).replies
  exact ⟨own, h1⟩

/-- C80: a request whose fields have the documented types is answered exactly once, if what the interpreter returns can be
sent, unless user code throws an exception. -/
theorem C80_answer (env : Env) (hs : Sane env) (I : Interp σ) (st : Start σ) (s : Conc σ) (m : XMessage) (r : Req) (rt : String)
    (h : CRun env I st (fun w => Obliging env I m w r) s) (t : Chan) (q : Multipart) (seg : List Act) (ho : Over s t q seg)
    (ha : Accepted env.C env.J env.auth q m) (hr : IsReq m r) (hrt : replyType r = some rt) :
    ∃ own, Replies env t q seg own ∧ ((∃ rep, own = [rep] ∧ IsReply env t m.ids m.body.header (lit rt) rep) ∨
      (own = [] ∧ ∃ e, Ev.threw e ∈ eventsOf t seg)) := by
  obtain ⟨own, h1, h2⟩ := ((ainv_run (H := fun m' r' => m' = m ∧ r' = r) hs
    (CRun.mono h fun w hw m' r' hm => by obtain ⟨rfl, rfl⟩ := hm; exact hw)).over ho).replies
  exact ⟨own, h1, h2 m r rt ha hr ⟨rfl, rfl⟩ hrt⟩

/-- C80: a message that a thread took from the shell socket in order to abort it is sent an error reply by that thread before it
receives its next message, if that is possible. -/
theorem C80_aborted (env : Env) (hs : Sane env) (I : Interp σ) (st : Start σ) (s : Conc σ) (h : CReach env I st s) (t : Chan)
    (q : Multipart) (seg : List Act) (ho : Over s t q seg) (q' : Multipart) (hq : Act.drained t q' ∈ seg)
    (hab : Abortable env q') (m : XMessage) (ha : Accepted env.C env.J env.auth q' m) :
    ∃ rep, Act.did t rep ∈ seg ∧ IsAbortReply env m rep := by
  obtain ⟨own, _, done, stuck, ab, h1, h2, h3, _, h5, _⟩ := C80_account env hs I st s h t q seg ho
  have hmem : ∀ l : List Act, Act.drained t q' ∈ l → q' ∈ drainedBy t l := by
    intro l
    induction l with
    | nil => simp
    | cons a l ih =>
      intro hm
      rcases List.mem_cons.1 hm with rfl | hm
      · simp [drainedBy]
      · have := ih hm
        cases a with
        | drained t' x => simp only [drainedBy]; split <;> simp [this]
        | _ => exact this
  have hd := hmem seg hq
  rw [h2] at hd
  rcases List.mem_append.1 hd with hd | hd
  · obtain ⟨rep, g1, g2⟩ := abortAll_mem h3 hd ha
    refine ⟨rep, mem_eventsOf (mem_repliesIn.1 ?_).1, g2⟩
    rw [h1]
    exact List.mem_append_right _ g1
  · exact absurd hab (h5 q' hd)

/-! ### Examples -/

/-- The execute request handled in the schedule `turns`. -/
def turnedReq : XMessage :=
  reqFrom "a" "m1" "execute_request" (.obj [(lit "code", .str (lit "1")), (lit "stop_on_error", .bool true)])

/-- What happened while it was handled. -/
def turnedSeg : List Act := (turned.log.drop 1).dropLast

theorem turned_over : Over turned .shell (wireOf turnedReq) turnedSeg := by
  refine ⟨[], [.took .shell (wireOf (reqFrom "d" "m4" "kernel_info_request" (.obj [])))], by decide +kernel, ?_, .inl ⟨_, _, rfl⟩⟩
  have : (turnedSeg.all fun a => match a with
      | .took .shell _ => false
      | _ => true) = true := by decide +kernel
  intro x hx
  cases List.all_eq_true.1 this _ hx

/-- The failing execute request meets the hypotheses of the three theorems: both threads worked, and a message was aborted. -/
example : CReach sampleEnv failInterp 0 turned ∧ Over turned .shell (wireOf turnedReq) turnedSeg ∧
    (repliesIn (eventsOf .shell turnedSeg)).length = 2 ∧ (drainedBy .shell turnedSeg).length = 1 ∧
    (eventsOf .control turnedSeg).length = 4 :=
  ⟨turned_reach, turned_over, by decide +kernel, by decide +kernel, by decide +kernel⟩

theorem turned_obliging (w : World Nat) : Obliging sampleEnv failInterp turnedReq w .execute := by
  refine ⟨⟨lit "1", false, true, 1, .obj [], true, true⟩, rfl, fun n r => ?_⟩
  exact ⟨.inl rfl, ⟨by decide, fun _ => (jsonUtf8_iff _).2 (by decide +kernel)⟩, lit "error", by decide +kernel⟩

example : Sane sampleEnv ∧ CRun sampleEnv failInterp 0 (fun w => Obliging sampleEnv failInterp turnedReq w .execute) turned ∧
    Over turned .shell (wireOf turnedReq) turnedSeg ∧
    Accepted sampleEnv.C sampleEnv.J sampleEnv.auth (wireOf turnedReq) turnedReq ∧ IsReq turnedReq .execute ∧
    replyType .execute = some "execute_reply" :=
  ⟨sampleEnv_sane, CRun.mono (run_of_reach turned_reach) fun w _ => turned_obliging w, turned_over,
    sample_accepted (by decide +kernel), rfl, rfl⟩

example : ∃ q', Act.drained .shell q' ∈ turnedSeg ∧ Abortable sampleEnv q' ∧ ∃ m, Accepted sampleEnv.C sampleEnv.J sampleEnv.auth q' m := by
  have hacc : Accepted sampleEnv.C sampleEnv.J sampleEnv.auth
      (wireOf (reqFrom "c" "m3" "execute_request" (.obj [(lit "code", .str (lit "2"))])))
      (reqFrom "c" "m3" "execute_request" (.obj [(lit "code", .str (lit "2"))])) := sample_accepted (by decide +kernel)
  refine ⟨_, ?_, .inr ⟨_, lit "execute_request", lit "execute_reply", hacc, by decide +kernel, ?_, fun _ => ?_⟩, _, hacc⟩
  · have h : drainedBy .shell turnedSeg =
        [wireOf (reqFrom "c" "m3" "execute_request" (.obj [(lit "code", .str (lit "2"))]))] := by decide +kernel
    have key : ∀ l : List Act, ∀ q ∈ drainedBy .shell l, Act.drained .shell q ∈ l := by
      intro l
      induction l with
      | nil => simp [drainedBy]
      | cons a l ih =>
        intro q hq
        cases a with
        | drained t x =>
          simp only [drainedBy] at hq
          split at hq
          · rename_i ht
            subst ht
            rcases List.mem_cons.1 hq with rfl | hq
            · exact List.mem_cons_self
            · exact List.mem_cons_of_mem _ (ih q hq)
          · exact List.mem_cons_of_mem _ (ih q hq)
        | _ => exact List.mem_cons_of_mem _ (ih q hq)
    exact key _ _ (by rw [h]; exact List.mem_cons_self)
  · exact ⟨lit "execute", lit "request", by decide, by decide, by decide⟩
  · exact (utf8b_iff _).1 (by decide +kernel)

end Xeus
