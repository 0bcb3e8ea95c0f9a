import Verif.Dap.RouteLemmas

/-! # Routing of the messages of the adapter: whole runs (no property statements here) -/

namespace Xeus

open Spec K

variable {σ : Type} {cl : Client σ}

/-! ## Termination of `process_message_queue` -/

/-- Chunks are consumed, or the queue does not grow. -/
def Shrinks (s s' : Dap σ) : Prop :=
  s'.tcpIn.length < s.tcpIn.length ∨ s'.tcpIn.length = s.tcpIn.length ∧ s'.queue.length ≤ s.queue.length

theorem shrinks_pre : Pre (Shrinks (σ := σ)) :=
  ⟨fun _ => .inr ⟨rfl, Nat.le_refl _⟩, fun h₁ h₂ => by unfold Shrinks at *; omega⟩

theorem Still.shrinks {s s' : Dap σ} (h : Still s s') : Shrinks s s' :=
  .inr ⟨by rw [h.tcpIn], by rw [h.queue]; exact Nat.le_refl _⟩

theorem shrinks_waitLoop (cond : Json → Res Bool) (n : Nat) (s : Dap σ) : Shrinks s (waitLoop cl cond n s).2 := by
  cases n with
  | zero => exact shrinks_pre.refl s
  | succ n =>
    simp only [waitLoop]
    cases ht : handleTcp s.stopped s.tcpIn with
    | blocked => exact shrinks_pre.refl s
    | endless => exact shrinks_pre.refl s
    | thrown e q cs =>
      obtain ⟨batch, used, hu, rfl, hcs⟩ := handleTcp_thrown ht
      have : 0 < used.length := List.length_pos_iff.2 hu
      left
      show cs.length < _
      rw [hcs]; simp; omega
    | got q cs =>
      obtain ⟨batch, used, _, hu, rfl, hcs⟩ := handleTcp_got ht
      have : 0 < used.length := List.length_pos_iff.2 hu
      have hlt : cs.length < s.tcpIn.length := by rw [hcs]; simp; omega
      dsimp only
      split
      · exact .inl hlt
      · left
        obtain ⟨read, hr⟩ := (waitLoop_effect (cl := cl) cond n (afterDrain s (s.rcvd ++ (s.stopped ++ batch).drop
          s.stopped.length) cs (drain cl cond (s.stopped ++ batch) s.queue none []))).chunks
        have hl := congrArg List.length hr
        simp only [List.length_append] at hl
        have : (afterDrain s (s.rcvd ++ (s.stopped ++ batch).drop
          s.stopped.length) cs (drain cl cond (s.stopped ++ batch) s.queue none [])).tcpIn.length = cs.length := rfl
        omega
      · exact .inl hlt
      · exact .inl hlt
      · exact .inl hlt

theorem shrinks_wait (cond : Json → Res Bool) : Keeps Shrinks (waitForMessage cl cond) := by
  intro s
  simp only [waitForMessage, run_lift]
  cases hs : searchQueue cl cond s.queue with
  | ok o =>
    cases o with
    | none => exact shrinks_waitLoop cond _ s
    | some x =>
      obtain ⟨j, raw, q'⟩ := x
      obtain ⟨pre, post, h1, h2, _⟩ := searchQueue_some hs
      refine .inr ⟨rfl, ?_⟩
      show q'.length ≤ _
      rw [h1, h2]; simp
  | exc e => exact shrinks_pre.refl s
  | ub e => exact shrinks_pre.refl s
  | hang => exact shrinks_pre.refl s

theorem shrinks_exec {α : Type} (p : Prog σ DapOp α) : Keeps Shrinks (dapExec cl p) := by
  refine keeps_dapExec shrinks_pre (fun s st => (still_set s st).shrinks) ?_ p
  intro o
  cases o with
  | forward j => exact Keeps.bind shrinks_pre (fun s => (still_forward j s).shrinks) fun _ => Keeps.pure shrinks_pre _
  | request j => exact Keeps.bind shrinks_pre (fun s => (still_request j s).shrinks) fun _ => Keeps.pure shrinks_pre _
  | wait cond => exact Keeps.bind shrinks_pre (shrinks_wait cond) fun _ => Keeps.pure shrinks_pre _
  | parentHeader => exact Keeps.read shrinks_pre _

theorem shrinks_message (raw : Str) : Keeps Shrinks (handleMessage cl raw) := by
  intro s
  rcases handleMessage_cases (cl := cl) raw s with ⟨_, h⟩ | ⟨j, _, _, h⟩ | ⟨j, _, _, _, h⟩ | ⟨j, _, _, _, h⟩
  · exact h.shrinks
  · rw [h]
    exact shrinks_exec (cl := cl) _ { s with routed := s.routed ++ [raw], out := s.out ++ [.event j] }
  · rw [h]; exact .inr ⟨rfl, Nat.le_refl _⟩
  · rw [h]; exact .inr ⟨rfl, Nat.le_refl _⟩

/-- A completed iteration consumes chunks or shortens the queue. -/
theorem processOne_shrinks {raw : Str} {s s' : Dap σ} (h : (processOne cl raw).run s = (.ok (), s')) :
    s'.tcpIn.length < s.tcpIn.length ∨ s'.tcpIn.length = s.tcpIn.length ∧ s'.queue.length < s.queue.length := by
  rcases processOne_split (cl := cl) raw s with ⟨_, h2⟩ | ⟨h1, _, h3⟩
  · have hm := shrinks_message (cl := cl) raw s
    rw [h] at h2
    obtain ⟨x, q, e1, rfl⟩ := popFront_ok h2.symm
    rcases hm with hm | ⟨hm1, hm2⟩
    · exact .inl hm
    · refine .inr ⟨hm1, ?_⟩
      rw [e1] at hm2
      exact hm2
  · rw [h] at h3; exact absurd h3.symm h1

theorem process_exists (s : Dap σ) : ∃ r s', Process cl s r s' := by
  generalize hN : s.tcpIn.length = N
  induction N using Nat.strongRecOn generalizing s with
  | _ N ihN =>
    generalize hM : s.queue.length = M
    induction M using Nat.strongRecOn generalizing s with
    | _ M ihM =>
      cases hq : s.queue with
      | nil => exact ⟨_, _, .empty hq⟩
      | cons raw q =>
        rcases hr : (processOne cl raw).run s with ⟨r, s'⟩
        by_cases hok : r = .ok ()
        · subst hok
          rcases processOne_shrinks hr with h | ⟨h1, h2⟩
          · obtain ⟨r, s'', hp⟩ := ihN _ (by omega) s' rfl
            exact ⟨r, s'', .more hq hr hp⟩
          · obtain ⟨r, s'', hp⟩ := ihM _ (by omega) s' (by omega) rfl
            exact ⟨r, s'', .more hq hr hp⟩
        · exact ⟨r, s', .stop hq hr hok⟩

/-- The outcome is determined. -/
theorem process_det {s s₁ s₂ : Dap σ} {r₁ r₂ : Res Unit} (h₁ : Process cl s r₁ s₁) (h₂ : Process cl s r₂ s₂) :
    r₁ = r₂ ∧ s₁ = s₂ := by
  induction h₁ with
  | empty h =>
    cases h₂ with
    | empty _ => exact ⟨rfl, rfl⟩
    | more h' => rw [h] at h'; cases h'
    | stop h' => rw [h] at h'; cases h'
  | more h hr _ ih =>
    cases h₂ with
    | empty h' => rw [h] at h'; cases h'
    | more h' hr' hp =>
      rw [h] at h'; cases h'
      rw [hr] at hr'; cases hr'
      exact ih hp
    | stop h' hr' hne =>
      rw [h] at h'; cases h'
      rw [hr] at hr'; cases hr'
      exact absurd rfl hne
  | stop h hr hne =>
    cases h₂ with
    | empty h' => rw [h] at h'; cases h'
    | more h' hr' hp =>
      rw [h] at h'; cases h'
      rw [hr] at hr'; cases hr'
      exact absurd rfl hne
    | stop h' hr' _ =>
      rw [h] at h'; cases h'
      rw [hr] at hr'; cases hr'
      exact ⟨rfl, rfl⟩

theorem process_empty {s s' : Dap σ} {r : Res Unit} (h : Process cl s r s') (hr : r = .ok ()) : s'.queue = [] := by
  induction h with
  | empty h => exact h
  | more _ _ _ ih => exact ih hr
  | stop _ _ hne => exact absurd hr hne

/-! ## Invariants of completed steps -/

/-- Completed runs keep `I`. -/
def KeptOk (I : Dap σ → Prop) {α : Type} (m : K (Dap σ) α) : Prop :=
  ∀ s a s', I s → m.run s = (.ok a, s') → I s'

theorem KeptOk.bind {I : Dap σ → Prop} {α β : Type} {m : K (Dap σ) α} {f : α → K (Dap σ) β} (h : KeptOk I m)
    (hf : ∀ a, KeptOk I (f a)) : KeptOk I (m >>= f) := by
  intro s b s' hi hr
  rw [run_bind] at hr
  rcases hm : m.run s with ⟨r, s₁⟩
  rw [hm] at hr
  cases r with
  | ok a => rw [andThen_ok] at hr; exact hf a _ _ _ (h _ _ _ hi hm) hr
  | exc e => rw [andThen_exc] at hr; simp at hr
  | ub e => rw [andThen_ub] at hr; simp at hr
  | hang => rw [andThen_hang] at hr; simp at hr

theorem KeptOk.of_keeps {I : Dap σ → Prop} {R : Dap σ → Dap σ → Prop} {α : Type} {m : K (Dap σ) α} (h : Keeps R m)
    (hi : ∀ s s', R s s' → I s → I s') : KeptOk I m := by
  intro s a s' h1 h2
  have := h s
  rw [h2] at this
  exact hi _ _ this h1

/-- What the invariants below depend on is unchanged. -/
structure Core (s s' : Dap σ) : Prop where
  handled : handled s'.out = handled s.out
  routed : s'.routed = s.routed
  queue : s'.queue = s.queue
  stopped : s'.stopped = s.stopped
  tcpIn : s'.tcpIn = s.tcpIn
  rcvd : s'.rcvd = s.rcvd
  waited : s'.waited = s.waited
  lost : s'.lost = s.lost

theorem core_pre : Pre (Core (σ := σ)) :=
  ⟨fun _ => ⟨rfl, rfl, rfl, rfl, rfl, rfl, rfl, rfl⟩, fun h₁ h₂ => ⟨h₂.handled.trans h₁.handled, h₂.routed.trans h₁.routed,
    h₂.queue.trans h₁.queue, h₂.stopped.trans h₁.stopped, h₂.tcpIn.trans h₁.tcpIn, h₂.rcvd.trans h₁.rcvd,
    h₂.waited.trans h₁.waited, h₂.lost.trans h₁.lost⟩⟩

theorem Still.core {s s' : Dap σ} (h : Still s s') : Core s s' :=
  ⟨h.quiet.handled, h.quiet.routed, h.queue, h.stopped, h.tcpIn, h.rcvd, h.waited, h.lost⟩

theorem core_send (b : Str) : Keeps Core (controllerSend (σ := σ) b) := by
  refine Keeps.lift fun s => ?_
  cases s.replyDue with
  | false => exact core_pre.refl s
  | true => exact ⟨by simp [handled], rfl, rfl, rfl, rfl, rfl, rfl, rfl⟩

theorem core_recv : Keeps Core (controllerRecv (σ := σ)) := by
  refine Keeps.lift fun s => ?_
  cases s.replyDue with
  | true => exact core_pre.refl s
  | false =>
    cases s.ctlIn with
    | nil => exact core_pre.refl s
    | cons x r => exact ⟨rfl, rfl, rfl, rfl, rfl, rfl, rfl, rfl⟩

theorem core_header : Keeps Core (handleHeader (σ := σ)) := by
  refine Keeps.lift fun s => ?_
  cases s.hdrIn with
  | nil => exact core_pre.refl s
  | cons x r => exact ⟨by simp [handled], rfl, rfl, rfl, rfl, rfl, rfl, rfl⟩

theorem core_start : Keeps Core (startDebugger cl) :=
  Keeps.bind core_pre core_recv fun _ => Keeps.bind core_pre (core_send _) fun _ =>
    Keeps.modify fun _ => ⟨rfl, rfl, rfl, rfl, rfl, rfl, rfl, rfl⟩

/-- An invariant of the loop, from the steps that matter. -/
theorem reach_inv {I : Dap σ → Prop} (hext : ∀ s s', Core s s' → I s → I s')
    (hwait : ∀ cond, KeptOk I (waitForMessage cl cond)) (hread : KeptOk I (readMessages (σ := σ)))
    (hone : ∀ s s' raw q, s.queue = raw :: q → I s → (processOne cl raw).run s = (.ok (), s') → I s')
    {s₀ s : Dap σ} (h₀ : I s₀) (h : DapReach cl s₀ s) : I s := by
  have hcore : ∀ {α : Type} {m : K (Dap σ) α}, Keeps Core m → KeptOk I m := fun hm => KeptOk.of_keeps hm hext
  have hreq : ∀ j, KeptOk I (sendDapRequest cl j) := fun j => KeptOk.of_keeps (still_request j) fun s s' h => hext s s' h.core
  have hres : ∀ {α : Type} (r : Res α), KeptOk I (K.ofRes r) := fun r => hcore (Keeps.ofRes core_pre r)
  have hinit : KeptOk I (handleInitSequence cl) :=
    KeptOk.bind (hwait _) fun _ => KeptOk.bind (hres _) fun _ => KeptOk.bind (hreq _) fun _ =>
      KeptOk.bind (hwait _) fun _ => KeptOk.bind (hwait _) fun _ =>
      KeptOk.bind (KeptOk.of_keeps (still_forward _) fun s s' h => hext s s' h.core) fun _ =>
      KeptOk.bind (hres _) fun _ => hcore (core_send _)
  have htail : ∀ b, KeptOk I (attachTail cl b) := by
    intro b
    cases b
    · exact hcore (Keeps.pure core_pre ())
    · exact KeptOk.bind hinit fun _ => hcore (Keeps.modify fun s => ⟨rfl, rfl, rfl, rfl, rfl, rfl, rfl, rfl⟩)
  have htcp : ∀ b, KeptOk I (dapEmit (σ := σ) (.tcp b)) := fun b => KeptOk.of_keeps (still_tcp b) fun s s' h => hext s s' h.core
  have hctl : KeptOk I (handleControl cl) := by
    refine KeptOk.bind (hcore core_recv) fun raw => KeptOk.bind (hcore (Keeps.read core_pre _)) fun w => ?_
    cases w
    · exact htcp _
    · exact KeptOk.bind (hres _) fun _ => KeptOk.bind (hres _) fun _ => KeptOk.bind (htcp _)
        fun _ => KeptOk.bind (hres _) fun _ => htail _
  have hwhen : ∀ b {m : K (Dap σ) Unit}, KeptOk I m → KeptOk I (whenK b m) := by
    intro b m hm
    cases b
    · exact hcore (Keeps.pure core_pre ())
    · exact hm
  have hpoll : ∀ a b c, KeptOk I (afterPoll cl a b c) := fun a b c =>
    KeptOk.bind (hwhen _ (hcore core_header)) fun _ => KeptOk.bind (hwhen _ hctl) fun _ => hwhen _ hread
  have hproc : ∀ s r s', Process cl s r s' → r = .ok () → I s → I s' := by
    intro s r s' hp
    induction hp with
    | empty _ => exact fun _ h => h
    | more h1 h2 _ ih => exact fun hr h => ih hr (hone _ _ _ _ h1 h h2)
    | stop _ _ hne => exact fun hr => absurd hr hne
  induction h with
  | start h => exact hcore core_start _ _ _ h₀ h
  | iter _ hi ih =>
    cases hi with
    | done _ _ h1 h2 => exact hproc _ _ _ h2 rfl (hpoll _ _ _ _ _ _ ih h1)
    | fail _ _ _ hne => exact absurd rfl hne

theorem reach_empty {s₀ s : Dap σ} (h₀ : s₀.queue = []) (h : DapReach cl s₀ s) : s.queue = [] := by
  cases h with
  | start h =>
    have := core_start (cl := cl) s₀
    rw [h] at this
    rw [this.queue, h₀]
  | iter _ hi =>
    cases hi with
    | done _ _ h1 h2 => exact process_empty h2 rfl
    | fail _ _ _ hne => exact absurd rfl hne

/-! ## The stream -/

/-- What has been received is a prefix of the messages sent by the adapter; the rest is still to come. -/
def Link (ms : List DapMsg) (s : Dap σ) : Prop :=
  ∃ n, s.rcvd = bodies (ms.take n) ∧ s.tcpIn.flatten = wireOfMsgs (ms.drop n)

theorem Link.read {ms : List DapMsg} (hms : ∀ m ∈ ms, m.Ok) {s s' : Dap σ} (h : Link ms s) {q q' cs' : List Str}
    (hr : handleTcp q s.tcpIn = .got q' cs') (h1 : s'.rcvd = s.rcvd ++ q'.drop q.length) (h2 : s'.tcpIn = cs') :
    Link ms s' := by
  obtain ⟨n, e1, e2⟩ := h
  have hms' : ∀ m ∈ ms.drop n, m.Ok := fun m hm => hms m (List.mem_of_mem_drop hm)
  rcases handleTcp_cases hms' q (by rw [e2]; exact List.prefix_refl _) with ⟨k, n', h3, _, h4⟩ | ⟨_, h4⟩
  · rw [h4] at hr
    injection hr with g1 g2
    refine ⟨n + n', ?_, ?_⟩
    · rw [h1, ← g1, e1, List.drop_left, List.take_add]
      simp [bodies]
    · rw [h2, ← g2, drop_flatten_wire e2 h3, List.drop_drop]
  · rw [h4] at hr; cases hr

theorem Link.noThrow {ms : List DapMsg} (hms : ∀ m ∈ ms, m.Ok) {s : Dap σ} (h : Link ms s) {q q' cs' : List Str}
    {e : Exc} : handleTcp q s.tcpIn ≠ .thrown e q' cs' := by
  obtain ⟨n, e1, e2⟩ := h
  have hms' : ∀ m ∈ ms.drop n, m.Ok := fun m hm => hms m (List.mem_of_mem_drop hm)
  rcases handleTcp_cases hms' q (by rw [e2]; exact List.prefix_refl _) with ⟨k, n', h3, _, h4⟩ | ⟨_, h4⟩ <;> rw [h4] <;> simp

theorem link_waitLoop {ms : List DapMsg} (hms : ∀ m ∈ ms, m.Ok) (cond : Json → Res Bool) (n : Nat) (s : Dap σ)
    (h : Link ms s) : Link ms (waitLoop cl cond n s).2 := by
  induction n generalizing s with
  | zero => exact h
  | succ n ih =>
    simp only [waitLoop]
    cases ht : handleTcp s.stopped s.tcpIn with
    | blocked => exact h
    | endless => exact h
    | thrown e q cs => exact absurd ht (h.noThrow hms)
    | got q cs =>
      have h' : Link ms (afterDrain s (s.rcvd ++ q.drop s.stopped.length) cs (drain cl cond q s.queue none [])) :=
        h.read hms ht rfl rfl
      dsimp only
      split
      · exact h'
      · exact ih _ h'
      · exact h'
      · exact h'
      · exact h'

theorem link_wait {ms : List DapMsg} (hms : ∀ m ∈ ms, m.Ok) (cond : Json → Res Bool) :
    Keeps (fun s s' => Link ms s → Link ms s') (waitForMessage cl cond) := by
  intro s h
  simp only [waitForMessage, run_lift]
  cases searchQueue cl cond s.queue with
  | ok o =>
    cases o with
    | none => exact link_waitLoop hms cond _ s h
    | some x => exact h
  | exc e => exact h
  | ub e => exact h
  | hang => exact h

theorem link_exec {ms : List DapMsg} (hms : ∀ m ∈ ms, m.Ok) {α : Type} (p : Prog σ DapOp α) :
    Keeps (fun s s' => Link ms s → Link ms s') (dapExec cl p) := by
  have hpre : Pre fun s s' : Dap σ => Link ms s → Link ms s' := ⟨fun _ h => h, fun h₁ h₂ h => h₂ (h₁ h)⟩
  have hst : ∀ {s s' : Dap σ}, Still s s' → Link ms s → Link ms s' := fun h ⟨n, e1, e2⟩ =>
    ⟨n, by rw [h.rcvd, e1], by rw [h.tcpIn, e2]⟩
  refine keeps_dapExec hpre (fun s st => hst (still_set s st)) ?_ p
  intro o
  cases o with
  | forward j => exact Keeps.bind hpre (fun s => hst (still_forward j s)) fun _ => Keeps.pure hpre _
  | request j => exact Keeps.bind hpre (fun s => hst (still_request j s)) fun _ => Keeps.pure hpre _
  | wait cond => exact Keeps.bind hpre (link_wait hms cond) fun _ => Keeps.pure hpre _
  | parentHeader => exact Keeps.read hpre _

theorem readMessages_ok {s s' : Dap σ} (h : readMessages.run s = (.ok (), s')) :
    ∃ q cs, handleTcp s.queue s.tcpIn = .got q cs ∧
      s' = { s with queue := q, tcpIn := cs, rcvd := s.rcvd ++ q.drop s.queue.length } := by
  simp only [readMessages, run_lift] at h
  cases ht : handleTcp s.queue s.tcpIn with
  | got q cs => simp only [ht] at h; exact ⟨q, cs, rfl, (Prod.mk.inj h).2.symm⟩
  | thrown e q cs => simp [ht] at h
  | blocked => simp [ht] at h
  | endless => simp [ht] at h

theorem link_reach {ms : List DapMsg} (hms : ∀ m ∈ ms, m.Ok) {s₀ s : Dap σ} (h₀ : Link ms s₀)
    (h : DapReach cl s₀ s) : Link ms s := by
  refine reach_inv (I := Link ms) ?_ ?_ ?_ ?_ h₀ h
  · intro s s' h ⟨n, e1, e2⟩
    exact ⟨n, by rw [h.rcvd, e1], by rw [h.tcpIn, e2]⟩
  · intro cond
    exact KeptOk.of_keeps (link_wait hms cond) fun _ _ h => h
  · intro s a s' hl hr
    obtain ⟨q, cs, ht, rfl⟩ := readMessages_ok hr
    exact hl.read hms ht rfl rfl
  · intro s s' raw q hq hl hr
    rcases processOne_split (cl := cl) raw s with ⟨h1, h2⟩ | ⟨h1, _, h3⟩
    · rw [hr] at h2
      obtain ⟨x, q', _, rfl⟩ := popFront_ok h2.symm
      show Link ms ((handleMessage cl raw).run s).2
      rcases handleMessage_cases (cl := cl) raw s with ⟨_, h⟩ | ⟨j, _, _, h⟩ | ⟨j, _, _, _, h⟩ | ⟨j, _, _, _, h⟩
      · obtain ⟨n, e1, e2⟩ := hl
        exact ⟨n, by rw [h.rcvd, e1], by rw [h.tcpIn, e2]⟩
      · rw [h]; exact link_exec hms (cl.onEvent j) _ hl
      · rw [h]; exact hl
      · rw [h]; exact hl
    · rw [hr] at h3; exact absurd h3.symm h1

/-! ## The events -/

theorem events_message (raw : Str) (s : Dap σ) (hok : ((handleMessage cl raw).run s).1 = .ok ()) :
    ((handleMessage cl raw).run s).2.routed = s.routed ++ [raw] ∧
    handled ((handleMessage cl raw).run s).2.out = handled s.out ++ eventTexts cl.env.J [raw] := by
  rcases handleMessage_cases (cl := cl) raw s with ⟨hne, _⟩ | ⟨j, hj, hm, h⟩ | ⟨j, hj, hm, _, h⟩ | ⟨j, hj, hm, _, h⟩
  · exact absurd hok hne
  · have hq := quiet_exec (cl := cl) (cl.onEvent j) { s with routed := s.routed ++ [raw], out := s.out ++ [.event j] }
    rw [h]
    exact ⟨hq.routed, by rw [hq.handled]; simp [handled, eventTexts, hj, hm]⟩
  · rw [h]
    exact ⟨rfl, by simp [handled, eventTexts, hj, hm]⟩
  · rw [h] at hok; cases hok

theorem eventTexts_append (J : Codec) (a b : List Str) : eventTexts J (a ++ b) = eventTexts J a ++ eventTexts J b := by
  simp [eventTexts]

theorem events_reach {s₀ s : Dap σ} (h₀ : handled s₀.out = eventTexts cl.env.J s₀.routed)
    (h : DapReach cl s₀ s) : handled s.out = eventTexts cl.env.J s.routed := by
  refine reach_inv (I := fun s => handled s.out = eventTexts cl.env.J s.routed) ?_ ?_ ?_ ?_ h₀ h
  · intro s s' h h'
    rw [h.handled, h.routed, h']
  · intro cond
    exact KeptOk.of_keeps (quiet_wait cond) fun s s' h h' => by rw [h.handled, h.routed, h']
  · intro s a s' hl hr
    obtain ⟨q, cs, ht, rfl⟩ := readMessages_ok hr
    exact hl
  · intro s s' raw q hq hl hr
    rcases processOne_split (cl := cl) raw s with ⟨h1, h2⟩ | ⟨h1, _, h3⟩
    · rw [hr] at h2
      obtain ⟨x, q', _, rfl⟩ := popFront_ok h2.symm
      obtain ⟨e1, e2⟩ := events_message raw s h1
      show handled ((handleMessage cl raw).run s).2.out = eventTexts cl.env.J ((handleMessage cl raw).run s).2.routed
      rw [e1, e2, hl, eventTexts_append]
    · rw [hr] at h3; exact absurd h3.symm h1

/-! ## Order and accounting -/

/-- At the top of an iteration: the messages passed on and those queued, in the order of their arrival, and an account
of all messages. -/
structure Ord (s : Dap σ) : Prop where
  stopped : s.stopped = []
  sub : (s.routed ++ s.queue).Sublist s.rcvd
  all : (s.routed ++ s.queue ++ s.waited ++ s.lost).Perm s.rcvd

/-- While the event `raw` at the front of the queue is handled. -/
structure OrdIn (raw : Str) (s : Dap σ) : Prop where
  stopped : s.stopped = []
  head : ∃ q, s.queue = raw :: q ∧ (s.routed ++ q).Sublist s.rcvd ∧ (s.routed ++ q ++ s.waited ++ s.lost).Perm s.rcvd

theorem sublist_wait {r q f rcvd new : List Str} (h : (r ++ q).Sublist rcvd) (hf : f.Sublist new) :
    (r ++ (q ++ f)).Sublist (rcvd ++ new) := by
  rw [← List.append_assoc]
  exact h.append hf

theorem perm_wait {r q w l rcvd new : List Str} {p : Str → Bool} {L W : List Str}
    (h : (r ++ q ++ w ++ l).Perm rcvd) (hLW : new.filter p = L ++ W) :
    (r ++ (q ++ new.filter fun x => !p x) ++ (w ++ W) ++ (l ++ L)).Perm (rcvd ++ new) := by
  have h1 : (L ++ W ++ new.filter fun x => !p x).Perm new := by
    rw [← hLW]; exact List.filter_append_perm p new
  rw [List.perm_iff_count] at h h1 ⊢
  intro x
  have := h x
  have := h1 x
  simp only [List.count_append] at *
  omega

theorem perm_take {r pre post w l rcvd : List Str} {x : Str} (h : (r ++ (pre ++ x :: post) ++ w ++ l).Perm rcvd) :
    (r ++ (pre ++ post) ++ (w ++ [x]) ++ l).Perm rcvd := by
  refine List.Perm.trans ?_ h
  rw [List.perm_iff_count]
  intro y
  simp only [List.count_append, List.count_cons, List.count_nil]
  omega

theorem ord_wait (cond : Json → Res Bool) : KeptOk Ord (waitForMessage cl cond) := by
  intro s j s' ⟨hst, hsub, hall⟩ hr
  rcases wait_cases (cl := cl) cond s with ⟨pre, post, raw, j', hq, _, _, _, h⟩ | h
  · rw [hr] at h
    have : s' = _ := (Prod.mk.inj h).2
    subst this
    rw [hq] at hsub hall
    refine ⟨hst, ?_, perm_take hall⟩
    refine List.Sublist.trans ?_ hsub
    exact (List.Sublist.refl _).append ((List.Sublist.refl pre).append (List.sublist_cons_self raw post))
  · rw [hr] at h
    obtain ⟨new, used, L, W, e1, e2, e3, e4, e5, e6, e7, _⟩ := h.moved
    obtain ⟨g1, _⟩ := e7 j rfl
    rw [hst, g1, List.nil_append, List.append_nil] at e2
    subst e2
    refine ⟨g1, ?_, ?_⟩
    · rw [h.same.routed, e3, e1]
      exact sublist_wait hsub List.filter_sublist
    · rw [h.same.routed, e3, e1, e5, e6]
      exact perm_wait hall e4

theorem ordIn_wait {raw : Str} {j₀ : Json} (hp : cl.env.J.parse raw = some j₀) {cond : Json → Res Bool}
    (hc : cond j₀ ≠ .ok true) : KeptOk (OrdIn raw) (waitForMessage cl cond) := by
  intro s j s' ⟨hst, q, hq, hsub, hall⟩ hr
  rcases wait_cases (cl := cl) cond s with ⟨pre, post, r, j', hq', hj', hcj, _, h⟩ | h
  · rw [hr] at h
    have : s' = _ := (Prod.mk.inj h).2
    subst this
    rw [hq] at hq'
    cases pre with
    | nil =>
      simp only [List.nil_append, List.cons.injEq] at hq'
      rw [← hq'.1, hp] at hj'
      cases hj'
      exact absurd hcj hc
    | cons x pre =>
      simp only [List.cons_append, List.cons.injEq] at hq'
      obtain ⟨rfl, rfl⟩ := hq'
      refine ⟨hst, pre ++ post, rfl, ?_, perm_take hall⟩
      refine List.Sublist.trans ?_ hsub
      exact (List.Sublist.refl _).append ((List.Sublist.refl pre).append (List.sublist_cons_self r post))
  · rw [hr] at h
    obtain ⟨new, used, L, W, e1, e2, e3, e4, e5, e6, e7, _⟩ := h.moved
    obtain ⟨g1, _⟩ := e7 j rfl
    rw [hst, g1, List.nil_append, List.append_nil] at e2
    subst e2
    refine ⟨g1, q ++ new.filter (fun x => !hits cl.env.J cond x), ?_, ?_, ?_⟩
    · rw [e3, hq]; rfl
    · rw [h.same.routed, e1]
      exact sublist_wait hsub List.filter_sublist
    · rw [h.same.routed, e1, e5, e6]
      exact perm_wait hall e4

theorem attempt_ok {α : Type} {m : K (Dap σ) α} {s s' : Dap σ} {v : Except Exc α}
    (h : m.attempt.run s = (.ok v, s')) :
    (∃ a, v = .ok a ∧ m.run s = (.ok a, s')) ∨ (∃ e, v = .error e ∧ m.run s = (.exc e, s')) := by
  rw [run_attempt] at h
  rcases hm : m.run s with ⟨r, s₁⟩
  rw [hm] at h
  cases r with
  | ok a =>
    rw [K.captured_ok] at h
    obtain ⟨h1, h2⟩ := Prod.mk.inj h
    cases h1
    exact .inl ⟨a, rfl, by rw [h2]⟩
  | exc e =>
    rw [K.captured_exc] at h
    obtain ⟨h1, h2⟩ := Prod.mk.inj h
    cases h1
    exact .inr ⟨e, rfl, by rw [h2]⟩
  | ub e => rw [K.captured_ub] at h; simp at h
  | hang => rw [K.captured_hang] at h; simp at h

theorem ordIn_exec {raw : Str} {j₀ : Json} (hp : cl.env.J.parse raw = some j₀) {α : Type} {p : Prog σ DapOp α}
    (h : Orderly j₀ p) : KeptOk (OrdIn raw) (dapExec cl p) := by
  have hstill : ∀ {β : Type} {m : K (Dap σ) β}, Keeps Still m → KeptOk (OrdIn raw) m := fun hm =>
    KeptOk.of_keeps hm fun s s' h ⟨hst, q, hq, hsub, hall⟩ => ⟨by rw [h.stopped, hst], q, by rw [h.queue, hq],
      by rw [h.quiet.routed, h.rcvd]; exact hsub, by rw [h.quiet.routed, h.rcvd, h.waited, h.lost]; exact hall⟩
  induction h with
  | ret => exact hstill (Keeps.pure still_pre _)
  | throw => exact hstill (Keeps.throw still_pre _)
  | ub => exact hstill (Keeps.ofRes still_pre _)
  | hang => exact hstill (Keeps.ofRes still_pre _)
  | get _ ih => exact KeptOk.bind (hstill (Keeps.read still_pre _)) fun s => ih s
  | set _ ih => exact KeptOk.bind (hstill (Keeps.modify fun s => still_set s _)) fun _ => ih
  | forward _ ih =>
    exact KeptOk.bind (hstill (Keeps.bind still_pre (still_forward _) fun _ => Keeps.pure still_pre _).attempt) fun r => ih r
  | request _ ih =>
    exact KeptOk.bind (hstill (Keeps.bind still_pre (still_request _) fun _ => Keeps.pure still_pre _).attempt) fun r => ih r
  | parent _ ih => exact KeptOk.bind (hstill (Keeps.read still_pre _).attempt) fun r => ih r
  | @wait cond k hc _ herr ih =>
    intro s a s' hi hr
    have hr : ((dapSem cl (.wait cond)).attempt >>= fun r => dapExec cl (k r)).run s = (.ok a, s') := hr
    rw [run_bind] at hr
    rcases hm : (dapSem cl (.wait cond)).attempt.run s with ⟨r, s₁⟩
    rw [hm] at hr
    cases r with
    | ok v =>
      rw [andThen_ok] at hr
      rcases attempt_ok hm with ⟨b, rfl, hb⟩ | ⟨e, rfl, _⟩
      · have hg : KeptOk (OrdIn raw) (dapSem cl (.wait cond)) :=
          KeptOk.bind (ordIn_wait hp hc) fun _ => hstill (Keeps.pure still_pre _)
        exact ih b _ _ _ (hg _ _ _ hi hb) hr
      · rw [herr e] at hr
        simp [dapExec] at hr
    | exc e => rw [andThen_exc] at hr; simp at hr
    | ub e => rw [andThen_ub] at hr; simp at hr
    | hang => rw [andThen_hang] at hr; simp at hr

theorem ord_reach (hord : ∀ j, Orderly j (cl.onEvent j)) {s₀ s : Dap σ} (h₀ : Ord s₀) (h : DapReach cl s₀ s) :
    Ord s := by
  refine reach_inv (I := Ord) ?_ ord_wait ?_ ?_ h₀ h
  · intro s s' h ⟨a, b, c⟩
    exact ⟨by rw [h.stopped, a], by rw [h.routed, h.queue, h.rcvd]; exact b,
      by rw [h.routed, h.queue, h.rcvd, h.waited, h.lost]; exact c⟩
  · intro s a s' ⟨hst, hsub, hall⟩ hr
    obtain ⟨q, cs, ht, rfl⟩ := readMessages_ok hr
    obtain ⟨batch, used, _, _, rfl, _⟩ := handleTcp_got ht
    have hnew : (s.queue ++ batch).drop s.queue.length = batch := by simp
    refine ⟨hst, ?_, ?_⟩
    · show (s.routed ++ (s.queue ++ batch)).Sublist (s.rcvd ++ (s.queue ++ batch).drop s.queue.length)
      rw [hnew]
      exact sublist_wait hsub (List.Sublist.refl _)
    · show (s.routed ++ (s.queue ++ batch) ++ s.waited ++ s.lost).Perm (s.rcvd ++ (s.queue ++ batch).drop s.queue.length)
      rw [hnew]
      rw [List.perm_iff_count] at hall ⊢
      intro x
      have := hall x
      simp only [List.count_append] at *
      omega
  · intro s s' raw q hq ⟨hst, hsub, hall⟩ hr
    rcases processOne_split (cl := cl) raw s with ⟨h1, h2⟩ | ⟨h1, _, h3⟩
    · rw [hr] at h2
      obtain ⟨x, q', e1, rfl⟩ := popFront_ok h2.symm
      have hstep : (s.routed ++ raw :: q).Sublist s.rcvd ∧ (s.routed ++ raw :: q ++ s.waited ++ s.lost).Perm s.rcvd := by
        rw [hq] at hsub hall; exact ⟨hsub, hall⟩
      have e : s.routed ++ raw :: q = s.routed ++ [raw] ++ q := by simp
      have hin : OrdIn raw ((handleMessage cl raw).run s).2 := by
        rcases handleMessage_cases (cl := cl) raw s with ⟨hne, _⟩ | ⟨j, hj, hm, h⟩ | ⟨j, hj, hm, _, h⟩ | ⟨j, _, _, _, h⟩
        · exact absurd h1 hne
        · rw [h] at h1 ⊢
          refine ordIn_exec hj (hord j) _ _ _ ?_ (run_ok_of h1)
          refine ⟨hst, q, hq, ?_, ?_⟩
          · show (s.routed ++ [raw] ++ q).Sublist s.rcvd
            rw [← e]; exact hstep.1
          · show (s.routed ++ [raw] ++ q ++ s.waited ++ s.lost).Perm s.rcvd
            rw [← e]; exact hstep.2
        · rw [h]
          refine ⟨hst, q, hq, ?_, ?_⟩
          · show (s.routed ++ [raw] ++ q).Sublist s.rcvd
            rw [← e]; exact hstep.1
          · show (s.routed ++ [raw] ++ q ++ s.waited ++ s.lost).Perm s.rcvd
            rw [← e]; exact hstep.2
        · rw [h] at h1; cases h1
      obtain ⟨g1, q'', g2, g3, g4⟩ := hin
      rw [e1] at g2
      simp only [List.cons.injEq] at g2
      obtain ⟨rfl, rfl⟩ := g2
      exact ⟨g1, g3, g4⟩
    · rw [hr] at h3; exact absurd h3.symm h1

/-! ## Clients that never wait -/

/-- Without waiting for `attach`, the poll adds messages at the end of the queue and routes nothing. -/
def Polled (s s' : Dap σ) : Prop :=
  s.waitAttach = false → s'.waitAttach = false ∧ routes s'.out = routes s.out ∧ s'.routed = s.routed ∧
    s'.requestStop = s.requestStop ∧ ∃ new, s'.rcvd = s.rcvd ++ new ∧ s'.queue = s.queue ++ new

theorem polled_pre : Pre (Polled (σ := σ)) :=
  ⟨fun _ h => ⟨h, rfl, rfl, rfl, [], by simp, by simp⟩, fun h₁ h₂ h => by
    obtain ⟨a1, a2, a3, a4, n1, a5, a6⟩ := h₁ h
    obtain ⟨b1, b2, b3, b4, n2, b5, b6⟩ := h₂ a1
    exact ⟨b1, b2.trans a2, b3.trans a3, b4.trans a4, n1 ++ n2, by rw [b5, a5, List.append_assoc],
      by rw [b6, a6, List.append_assoc]⟩⟩

theorem Still.polled {s s' : Dap σ} (h : Still s s') : Polled s s' := fun hw =>
  ⟨by rw [h.quiet.waitAttach, hw], h.quiet.out, h.quiet.routed, h.quiet.requestStop, [], by simp [h.rcvd], by simp [h.queue]⟩

theorem polled_control : Keeps Polled (handleControl cl) := by
  intro s hw
  have hrecv : ∀ s : Dap σ, ((controllerRecv (σ := σ)).run s).2.waitAttach = s.waitAttach ∧
      Polled s ((controllerRecv (σ := σ)).run s).2 := by
    intro s
    simp only [controllerRecv, run_lift]
    cases s.replyDue with
    | true => exact ⟨rfl, polled_pre.refl s⟩
    | false =>
      cases s.ctlIn with
      | nil => exact ⟨rfl, polled_pre.refl s⟩
      | cons x r => exact ⟨rfl, fun hw => ⟨hw, rfl, rfl, rfl, [], by simp, by simp⟩⟩
  simp only [handleControl, run_bind, run_read]
  obtain ⟨h1, h2⟩ := hrecv s
  rcases hr : (controllerRecv (σ := σ)).run s with ⟨r, s₁⟩
  rw [hr] at h1 h2
  cases r with
  | ok raw =>
    rw [andThen_ok, andThen_ok]
    have hw1 : s₁.waitAttach = false := h1.trans hw
    rw [hw1]
    exact polled_pre.trans h2 (still_tcp raw s₁).polled hw
  | exc e => exact h2 hw
  | ub e => exact h2 hw
  | hang => exact h2 hw

theorem polled_read : Keeps Polled (readMessages (σ := σ)) := by
  intro s hw
  simp only [readMessages, run_lift]
  cases ht : handleTcp s.queue s.tcpIn with
  | blocked => exact polled_pre.refl s hw
  | endless => exact polled_pre.refl s hw
  | thrown e q cs =>
    obtain ⟨batch, used, _, rfl, _⟩ := handleTcp_thrown ht
    exact ⟨hw, rfl, rfl, rfl, batch, by simp, rfl⟩
  | got q cs =>
    obtain ⟨batch, used, _, _, rfl, _⟩ := handleTcp_got ht
    exact ⟨hw, rfl, rfl, rfl, batch, by simp, rfl⟩

theorem polled_poll (a b c : Bool) : Keeps Polled (afterPoll cl a b c) := by
  refine Keeps.bind polled_pre (keeps_whenK polled_pre ?_) fun _ =>
    Keeps.bind polled_pre (keeps_whenK polled_pre polled_control) fun _ => keeps_whenK polled_pre polled_read
  refine Keeps.lift fun s hw => ?_
  cases s.hdrIn with
  | nil => exact polled_pre.refl s hw
  | cons x r => exact ⟨hw, by simp [routes], rfl, rfl, [], by simp, by simp⟩

/-- A completed `process_message_queue` with handlers that do not wait. -/
theorem process_still (hnw : ∀ j, NoWait (cl.onEvent j)) {s s' : Dap σ} {r : Res Unit} (h : Process cl s r s')
    (hr : r = .ok ()) :
    s'.queue = [] ∧ s'.routed = s.routed ++ s.queue ∧
    routes s'.out = routes s.out ++ s.queue.filterMap (routeOf cl.env.J) ∧
    s'.requestStop = (s.requestStop || s.queue.any (isDisconnectText cl.env.J)) ∧ s'.stopped = s.stopped ∧
    s'.tcpIn = s.tcpIn ∧ s'.rcvd = s.rcvd ∧ s'.waited = s.waited ∧ s'.lost = s.lost ∧ s'.waitAttach = s.waitAttach := by
  induction h with
  | empty h => simp [h]
  | @more s s₁ s₂ raw q r h1 h2 h3 ih =>
    obtain ⟨a1, a2, a3, a4, a5, a6, a7, a8, a9, _, a11⟩ := processOne_still hnw h1 h2
    obtain ⟨b1, b2, b3, b4, b5, b6, b7, b8, b9, b10⟩ := ih hr
    refine ⟨b1, ?_, ?_, ?_, b5.trans a5, b6.trans a6, b7.trans a7, b8.trans a8, b9.trans a9, b10.trans a11⟩
    · rw [b2, a2, a1, h1]; simp
    · have : raw :: q = [raw] ++ q := rfl
      rw [b3, a3, a1, h1, this, List.filterMap_append, List.append_assoc]
    · rw [b4, a4, a1, h1]; simp [Bool.or_assoc]
  | stop _ _ hne => exact absurd hr hne

/-- Whole runs of such a client. -/
theorem plain_reach (hnw : ∀ j, NoWait (cl.onEvent j)) (hp : cl.parallel = false) {s₀ s : Dap σ}
    (h₀ : s₀.out = [] ∧ s₀.routed = [] ∧ s₀.rcvd = [] ∧ s₀.queue = []) (h : DapReach cl s₀ s) :
    s.waitAttach = false ∧ s.queue = [] ∧ s.routed = s.rcvd ∧
    routes s.out = .reply (lit "ACK") :: s.rcvd.filterMap (routeOf cl.env.J) ∧
    s.requestStop = s.rcvd.any (isDisconnectText cl.env.J) := by
  induction h with
  | @start s h =>
    simp only [startDebugger, controllerRecv, controllerSend, run_bind, run_lift] at h
    cases hd : s₀.replyDue with
    | true => rw [hd] at h; simp at h
    | false =>
      rw [hd] at h
      cases hc : s₀.ctlIn with
      | nil => rw [hc] at h; simp at h
      | cons x r =>
        rw [hc] at h
        simp only [Bool.false_eq_true, if_false, if_true, andThen_ok, run_modify] at h
        have : s = _ := (Prod.mk.inj h).2.symm
        subst this
        obtain ⟨e1, e2, e3, e4⟩ := h₀
        exact ⟨hp, e4, by simp [e2, e3], by simp [e1, e3, routes], by simp [e3]⟩
  | @iter s s' hre hi ih =>
    obtain ⟨i1, i2, i3, i4, i5⟩ := ih
    cases hi with
    | fail _ _ _ hne => exact absurd rfl hne
    | @done _ s₁ a b c _ _ hstop h1 h2 =>
      have hpoll := polled_poll (cl := cl) a b c s
      rw [h1] at hpoll
      obtain ⟨p1, p2, p3, p4, new, p5, p6⟩ := hpoll i1
      obtain ⟨b1, b2, b3, b4, b5, b6, b7, b8, b9, b10⟩ := process_still hnw h2 rfl
      rw [i2, List.nil_append] at p6
      refine ⟨b10.trans p1, b1, ?_, ?_, ?_⟩
      · rw [b2, b7, p5, p3, p6, i3]
      · rw [b3, b7, p5, p2, p6, i4]; simp
      · rw [b4, b7, p5, p4, p6, i5]; simp

/-! ## Completion -/

theorem process_runs (hnw : ∀ j, NoWait (cl.onEvent j)) (hok : ∀ j s, ((dapExec cl (cl.onEvent j)).run s).1 = .ok ())
    {s : Dap σ} (hobj : ∀ raw ∈ s.queue, ObjectText cl.env.J raw)
    (hdue : (s.queue.filter fun raw => !isEventText cl.env.J raw).length ≤ if s.replyDue then 1 else 0) :
    ∃ s', Process cl s (.ok ()) s' := by
  generalize hN : s.queue.length = N
  induction N generalizing s with
  | zero => exact ⟨s, .empty (List.length_eq_zero_iff.1 hN)⟩
  | succ N ih =>
    cases hq : s.queue with
    | nil => rw [hq] at hN; cases hN
    | cons raw q =>
      obtain ⟨kvs, hk⟩ := hobj raw (by simp [hq])
      have hrun : ((handleMessage cl raw).run s).1 = .ok () := by
        rcases handleMessage_cases (cl := cl) raw s with ⟨hne, _⟩ | ⟨j, hj, hm, h⟩ | ⟨j, hj, hm, hd, h⟩ | ⟨j, hj, hm, hd, h⟩
        · exfalso
          have := congrFun (handleMessage_object (cl := cl) hk) s
          cases hm : memberIs (.obj kvs) "type" "event" with
          | true =>
            rw [this, hm, if_pos rfl, run_passEvent] at hne
            exact hne (hok _ _)
          | false =>
            rw [hm] at this
            simp only [Bool.false_eq_true, if_false, run_passOn] at this
            have hd : s.replyDue = true := by
              cases hd : s.replyDue with
              | true => rfl
              | false =>
                rw [hq, hd] at hdue
                simp [isEventText, hk, hm] at hdue
            rw [this, hd] at hne
            simp at hne
        · rw [h]; exact hok _ _
        · rw [h]
        · exfalso
          rw [hq, hd] at hdue
          simp [isEventText, hj, hm] at hdue
      have hpop : ∃ s', (processOne cl raw).run s = (.ok (), s') := by
        rcases processOne_split (cl := cl) raw s with ⟨_, h2⟩ | ⟨h1, _⟩
        · have hqk : ((handleMessage cl raw).run s).2.queue = raw :: q := by
            rcases handleMessage_cases (cl := cl) raw s with ⟨_, h⟩ | ⟨j, hj, hm, h⟩ | ⟨j, hj, hm, hd, h⟩ | ⟨j, hj, hm, hd, h⟩
            · rw [h.queue, hq]
            · rw [h, (still_exec (cl := cl) (hnw j) _).queue]; exact hq
            · rw [h]; exact hq
            · rw [h]; exact hq
          rw [h2, run_popFront, hqk]
          exact ⟨_, rfl⟩
        · exact absurd hrun h1
      obtain ⟨s', hs'⟩ := hpop
      obtain ⟨a1, a2, a3, a4, a5, a6, a7, a8, a9, a10, a11⟩ := processOne_still hnw hq hs'
      obtain ⟨s'', hp⟩ := ih (s := s') (fun x hx => hobj x (by rw [a1] at hx; simp [hq, hx])) (by
        rw [a1, a10]
        rw [hq] at hdue
        cases he : isEventText cl.env.J raw with
        | true => simpa [he] using hdue
        | false =>
          simp only [List.filter_cons, he, Bool.not_false, if_true, List.length_cons, Bool.and_false,
            Bool.false_eq_true, if_false] at hdue ⊢
          split at hdue <;> omega) (by
        rw [hq] at hN
        rw [a1]
        simpa using hN)
      exact ⟨s'', .more hq hs' hp⟩

end Xeus
