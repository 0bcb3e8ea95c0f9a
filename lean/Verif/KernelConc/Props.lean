import Verif.KernelConc.Invariant
import Verif.Kernel.PropsComm

/-!
# Parallel handling of messages: the properties
-/

namespace Xeus

open Spec K

variable {σ : Type}

/-! ## A schedule used in the examples -/

/-- What happens next. -/
inductive Choice where
  | shell (q : Multipart) | control (q : Multipart) | take (t : Chan) | go (t : Chan)

/-- Perform it if possible. -/
def choose (env : Env) (I : Interp σ) (s : Conc σ) : Choice → Conc σ
  | .shell q => { s with w := { s.w with shellQ := s.w.shellQ ++ [q] } }
  | .control q => { s with controlQ := s.controlQ ++ [q] }
  | .take .shell => match s.prog .shell, s.w.shellQ with
    | .done (.ok ()), q :: r => { s with w := { s.w with shellQ := r }, prog := setProg s .shell (dispatch env I q .shell),
                                         log := s.log ++ [.took .shell q] }
    | _, _ => s
  | .take .control => match s.prog .control, s.controlQ with
    | .done (.ok ()), q :: r => { s with controlQ := r, prog := setProg s .control (dispatch env I q .control),
                                         log := s.log ++ [.took .control q] }
    | _, _ => s
  | .go t => match (s.prog t).step s.w with
    | some (p, w') => { s with w := w', prog := setProg s t p, log := s.log ++ entries t s.w w' }
    | none => s

/-- Any list of choices is a schedule. -/
theorem reach_choose {env : Env} {I : Interp σ} {st : Start σ} {s : Conc σ} (h : CReach env I st s) (cs : List Choice) :
    CReach env I st (cs.foldl (choose env I) s) := by
  induction cs generalizing s with
  | nil => exact h
  | cons c cs ih =>
    refine ih ?_
    cases c with
    | shell q => exact h.step (.arriveShell _ _)
    | control q => exact h.step (.arriveControl _ _)
    | take t =>
      cases t with
      | shell =>
        simp only [choose]
        split
        · rename_i h1 h2; exact h.step (.takeShell _ _ _ h1 h2)
        · exact h
      | control =>
        simp only [choose]
        split
        · rename_i h1 h2; exact h.step (.takeControl _ _ _ h1 h2)
        · exact h
    | go t =>
      simp only [choose]
      split
      · rename_i h1; exact h.step (.act _ _ _ _ h1)
      · exact h

/-- A request with a given sender and identifier. -/
def reqFrom (who id type : String) (content : Json) : XMessage :=
  ⟨[lit who], ⟨.obj [(lit "msg_id", .str (lit id)), (lit "msg_type", .str (lit type))], .obj [], .obj [], content, []⟩⟩

/-- An interpreter that makes the execution fail. -/
def failInterp : Interp Nat := { sampleInterp with
  execute := fun _ code _ _ _ _ => .call (.pub (.stream (lit "stdout") code)) fun _ =>
    .ret (.obj [(lit "status", .str (lit "error"))]) }

/-- The shell thread executes a cell that fails (with another one waiting) while the control thread handles an
interrupt request, taking turns. -/
def turns : List Choice :=
  [.shell (wireOf (reqFrom "a" "m1" "execute_request" (.obj [(lit "code", .str (lit "1")), (lit "stop_on_error", .bool true)]))),
   .control (wireOf (reqFrom "b" "m2" "interrupt_request" (.obj []))),
   .shell (wireOf (reqFrom "c" "m3" "execute_request" (.obj [(lit "code", .str (lit "2"))]))),
   .take .shell, .take .control] ++ (List.replicate 60 [Choice.go .shell, .go .control]).flatten ++
  [.shell (wireOf (reqFrom "d" "m4" "kernel_info_request" (.obj []))), .take .shell]

/-- The state after it. -/
def turned : Conc Nat :=
  turns.foldl (choose sampleEnv failInterp) ⟨World.initial 0 [] [], fun _ => .done (.ok ()), [], []⟩

theorem turned_reach : CReach sampleEnv failInterp 0 turned := reach_choose .start _

/-- Who replied to whom about what. -/
def repliers (l : List Act) : List (Chan × Chan × List Str × Option Json) :=
  l.filterMap fun
    | .did t (.reply c m _) => some (t, c, m.ids, m.body.parent.find? (lit "msg_id"))
    | _ => none

/-- The control thread answers first, then the shell thread answers the execute request and aborts the next one. -/
theorem turned_replies : repliers turned.log =
    [(.control, .control, [lit "b"], some (.str (lit "m2"))), (.shell, .shell, [lit "a"], some (.str (lit "m1"))),
     (.shell, .shell, [lit "c"], some (.str (lit "m3")))] := by decide +kernel

/-! ## C32: who messages are meant for -/

/-- C32: under every interleaving every event of a thread is meant for the sender of the message this thread is handling
(or aborting), as described by `Meant`. -/
theorem C32_meant (env : Env) (I : Interp σ) (st : Start σ) (s : Conc σ) (h : CReach env I st s) (pre : List Act) (t : Chan) (e : Ev)
    (post : List Act) (hl : s.log = pre ++ .did t e :: post) : Meant env pre t e :=
  (cinv_reach h).meant pre t e post hl

/-- C32: in particular the replies. -/
theorem C32_reply (env : Env) (I : Interp σ) (st : Start σ) (s : Conc σ) (h : CReach env I st s) (pre : List Act) (t c : Chan)
    (m : XMessage) (wire : Multipart) (post : List Act) (hl : s.log = pre ++ .did t (.reply c m wire) :: post) :
    ∃ q msg, Accepted env.C env.J env.auth q msg ∧ m.ids = msg.ids ∧ m.body.parent = msg.body.header ∧
      ((c = t ∧ Handling pre t q) ∨ (c = .shell ∧ Drained pre t q)) := by
  rcases C32_meant env I st s h pre t _ post hl with ⟨h1, q, msg, h2, h3, h4, h5⟩ | ⟨h1, q, msg, h2, h3, h4, h5⟩
  · exact ⟨q, msg, h3, h4, h5, .inl ⟨h1, h2⟩⟩
  · exact ⟨q, msg, h3, h4, h5, .inr ⟨h1, h2⟩⟩

example : ∃ s pre m wire post, CReach sampleEnv failInterp 0 s ∧ s.log = pre ++ .did .control (.reply .control m wire) :: post ∧
    m.ids = [lit "b"] := by
  have h : ∃ a ∈ turned.log, ∃ m wire, a = .did .control (.reply .control m wire) ∧ m.ids = [lit "b"] := by
    have : (turned.log.any fun a => match a with
      | .did .control (.reply .control m _) => m.ids = [lit "b"]
      | _ => false) = true := by decide +kernel
    obtain ⟨a, ha, h⟩ := List.any_eq_true.1 this
    split at h
    · exact ⟨_, ha, _, _, rfl, by simpa using h⟩
    · cases h
  obtain ⟨a, ha, m, wire, rfl, hm⟩ := h
  obtain ⟨pre, post, hl⟩ := List.append_of_mem ha
  exact ⟨turned, pre, m, wire, post, turned_reach, hl, hm⟩

/-! ## C32: whole messages -/

/-- C32: under every interleaving, what a thread does for one message, from receiving it to receiving the next one, is
nothing if the message is not well formed, and otherwise one block from `busy` to `idle`, with at most one reply in
addition to those to the messages it aborted. -/
theorem C32_block (env : Env) (I : Interp σ) (st : Start σ) (s : Conc σ) (h : CReach env I st s) (a : List Act) (t : Chan)
    (q : Multipart) (seg : List Act) (q' : Multipart) (post : List Act)
    (hl : s.log = a ++ .took t q :: seg ++ .took t q' :: post) (hn : ∀ x, Act.took t x ∉ seg) :
    ((Refused env.C env.J env.auth q ∧ eventsOf t seg = []) ∨
      ∃ msg, Accepted env.C env.J env.auth q msg ∧ Block env msg t (eventsOf t seg)) ∧
    (repliesIn (eventsOf t seg)).length ≤ 1 + abortedBy t seg :=
  (cinv_reach h).finished a t q seg q' post hl hn

/-- C32: and for the message in hand it is the beginning of such a block. -/
theorem C32_in_hand (env : Env) (I : Interp σ) (st : Start σ) (s : Conc σ) (h : CReach env I st s) (a : List Act) (t : Chan)
    (q : Multipart) (seg : List Act) (hl : s.log = a ++ .took t q :: seg) (hn : ∀ x, Act.took t x ∉ seg) :
    (eventsOf t seg = [] ∨ ∃ msg, Accepted env.C env.J env.auth q msg ∧
      (OpenBlock env msg t (eventsOf t seg) ∨ Block env msg t (eventsOf t seg))) ∧
    (repliesIn (eventsOf t seg)).length ≤ 1 + abortedBy t seg := by
  rcases (cinv_reach h).thread t with ⟨h', _⟩ | ⟨a', q', seg', h4, h5, _, h7, h8⟩
  · exact absurd rfl (h' (.took t q) (by rw [hl]; simp))
  · obtain ⟨rfl, rfl⟩ := last_took hl hn h4 h5
    exact ⟨h8, h7⟩

/-- In the schedule above both threads work at the same time: between `busy` and `idle` of the shell thread there are
those of the control thread. -/
example : (turned.log.filterMap fun
      | .did t (.pub c m _) => if m.body.header.find? (lit "msg_type") = some (.str (lit "status")) then
          some (t, c, m.body.content.find? (lit "execution_state")) else none
      | _ => none) =
    [(.shell, .shell, some (.str (lit "busy"))), (.control, .control, some (.str (lit "busy"))),
     (.control, .control, some (.str (lit "idle"))), (.shell, .shell, some (.str (lit "idle")))] := by decide +kernel

/-- It meets the hypotheses of `C32_block`: the shell thread receives a second message after having finished the first
one, during which it aborted another one. -/
example : ∃ q seg q', turned.log = [] ++ .took .shell q :: seg ++ .took .shell q' :: [] ∧
    (∀ x, Act.took .shell x ∉ seg) ∧ abortedBy .shell seg = 1 ∧ (repliesIn (eventsOf .shell seg)).length = 2 ∧
    (eventsOf .control seg).length = 4 := by
  refine ⟨wireOf (reqFrom "a" "m1" "execute_request" (.obj [(lit "code", .str (lit "1")), (lit "stop_on_error", .bool true)])),
    (turned.log.drop 1).dropLast, wireOf (reqFrom "d" "m4" "kernel_info_request" (.obj [])), by decide +kernel, ?_,
    by decide +kernel, by decide +kernel, by decide +kernel⟩
  have : ((turned.log.drop 1).dropLast.all fun a => match a with
      | .took .shell _ => false
      | _ => true) = true := by decide +kernel
  intro x hx
  cases List.all_eq_true.1 this _ hx

/-! ## C52: sockets of the publisher -/

/-- C52: a publication goes through the socket of the thread that makes it, with the exceptions described by
`Foreign`. -/
theorem C52_socket (env : Env) (I : Interp σ) (st : Start σ) (s : Conc σ) (h : CReach env I st s) (pre : List Act) (t c : Chan)
    (m : PubMessage) (wire : Multipart) (post : List Act) (hl : s.log = pre ++ .did t (.pub c m wire) :: post) :
    publishSocket c = t ∨ Foreign env t m := by
  by_cases hc : c = t
  · subst hc; left; cases c <;> rfl
  · exact .inr ((C32_meant env I st s h pre t _ post hl).2 hc)

/-- An interrupt request on the shell channel. -/
def interruptedTurns : List Choice :=
  [.shell (wireOf (reqFrom "a" "m1" "interrupt_request" (.obj []))), .take .shell] ++ List.replicate 40 (.go .shell)

/-- The state after it has been handled. -/
def interrupted : Conc Nat :=
  interruptedTurns.foldl (choose sampleEnv failInterp) ⟨World.initial 0 [] [], fun _ => .done (.ok ()), [], []⟩

theorem interrupted_reach : CReach sampleEnv failInterp 0 interrupted := reach_choose .start _

/-- Finding (C52): the exceptions do occur: an interrupt request on the shell channel makes the shell thread send through
the socket of the control thread. -/
theorem C52_shell_witness : ∃ s m wire, CReach sampleEnv failInterp 0 s ∧
    Act.did .shell (.pub .control m wire) ∈ s.log ∧ publishSocket .control ≠ .shell := by
  have : (interrupted.log.any fun a => match a with
      | .did .shell (.pub .control _ _) => true
      | _ => false) = true := by decide +kernel
  obtain ⟨a, ha, h⟩ := List.any_eq_true.1 this
  split at h
  · exact ⟨interrupted, _, _, interrupted_reach, ha, by decide⟩
  · cases h

/-- An execute request on the control channel. -/
def executedTurns : List Choice :=
  [.control (wireOf (reqFrom "a" "m1" "execute_request" (.obj []))), .take .control] ++ List.replicate 40 (.go .control)

/-- The state after it has been handled. -/
def executed : Conc Nat :=
  executedTurns.foldl (choose sampleEnv failInterp) ⟨World.initial 0 [] [], fun _ => .done (.ok ()), [], []⟩

theorem executed_reach : CReach sampleEnv failInterp 0 executed := reach_choose .start _

/-- Finding (C52): and an execute request on the control channel makes the control thread send through the socket of the
shell thread. -/
theorem C52_control_witness : ∃ s m wire, CReach sampleEnv failInterp 0 s ∧
    Act.did .control (.pub .shell m wire) ∈ s.log ∧ publishSocket .shell ≠ .control := by
  have : (executed.log.any fun a => match a with
      | .did .control (.pub .shell _ _) => true
      | _ => false) = true := by decide +kernel
  obtain ⟨a, ha, h⟩ := List.any_eq_true.1 this
  split at h
  · exact ⟨executed, _, _, executed_reach, ha, by decide⟩
  · cases h

example : ∃ s pre m wire post, CReach sampleEnv failInterp 0 s ∧ s.log = pre ++ .did .control (.pub .control m wire) :: post := by
  have : (turned.log.any fun a => match a with
      | .did .control (.pub .control _ _) => true
      | _ => false) = true := by decide +kernel
  obtain ⟨a, ha, h⟩ := List.any_eq_true.1 this
  split at h
  · obtain ⟨pre, post, hl⟩ := List.append_of_mem ha
    exact ⟨turned, pre, _, _, post, turned_reach, hl⟩
  · cases h

end Xeus
