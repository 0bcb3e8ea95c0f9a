import Verif.Dap.Lemmas
import Verif.Kernel.Frame

/-! # Attribution of debug events: lemmas (no property statements here) -/

namespace Xeus

open Spec K

variable {σ : Type} {cl : Client σ}

theorem run_ok_of {S : Type} {m : K S Unit} {s : S} (h : (m.run s).1 = .ok ()) : m.run s = (.ok (), (m.run s).2) :=
  Prod.ext h rfl

/-! ## Relations kept by the client -/

theorem keeps_dapExec {R : Dap σ → Dap σ → Prop} (hR : Pre R) (hset : ∀ s st, R s { s with st := st })
    (hop : ∀ o, Keeps R (dapSem cl o)) {α : Type} (p : Prog σ DapOp α) : Keeps R (dapExec cl p) := by
  induction p with
  | ret a => exact Keeps.pure hR a
  | throw e => exact Keeps.throw hR e
  | ub w => exact Keeps.ofRes hR _
  | hang => exact Keeps.ofRes hR _
  | get k ih => exact Keeps.bind hR (Keeps.read hR _) fun s => ih s
  | set st k ih => exact Keeps.bind hR (Keeps.modify fun s => hset s st) fun _ => ih
  | call o k ih => exact Keeps.bind hR (hop o).attempt fun r => ih r

theorem keeps_whenK {R : Dap σ → Dap σ → Prop} (hR : Pre R) {b : Bool} {m : K (Dap σ) Unit} (h : Keeps R m) :
    Keeps R (whenK b m) := by
  cases b
  · exact Keeps.pure hR ()
  · exact h

theorem keeps_process {R : Dap σ → Dap σ → Prop} (hR : Pre R) (h : ∀ raw, Keeps R (processOne cl raw)) {s s' : Dap σ}
    {r : Res Unit} (hp : Process cl s r s') : R s s' := by
  induction hp with
  | empty _ => exact hR.refl _
  | @more s s' s'' raw q r _ h1 _ ih =>
    have := h raw s
    rw [h1] at this
    exact hR.trans this ih
  | @stop s s' raw q r _ h1 _ =>
    have := h raw s
    rw [h1] at this
    exact this

theorem keeps_iter {R : Dap σ → Dap σ → Prop} (hR : Pre R) (h : ∀ raw, Keeps R (processOne cl raw))
    (hp : ∀ a b c, Keeps R (afterPoll cl a b c)) {s s' : Dap σ} {r : Res Unit} (hi : Iter cl s r s') : R s s' := by
  cases hi with
  | @done _ _ a b c _ _ _ h1 h2 =>
    have := hp a b c s
    rw [h1] at this
    exact hR.trans this (keeps_process hR h h2)
  | @fail _ a b c _ _ _ h1 _ =>
    have := hp a b c s
    rw [h1] at this
    exact this

/-- Everything the client does, in terms of its elementary actions. -/
theorem keeps_run {R : Dap σ → Dap σ → Prop} (hR : Pre R) (hset : ∀ s st, R s { s with st := st })
    (hfwd : ∀ j, Keeps R (forwardEvent cl j)) (hreq : ∀ b, Keeps R (dapEmit (σ := σ) (.tcp b)))
    (hwait : ∀ cond, Keeps R (waitForMessage cl cond)) (hhdr : Keeps R (handleHeader (σ := σ)))
    (hsend : ∀ b, Keeps R (controllerSend (σ := σ) b)) (hrecv : Keeps R (controllerRecv (σ := σ)))
    (hread : Keeps R (readMessages (σ := σ))) (hpop : Keeps R (popFront (σ := σ)))
    (hwa : ∀ s b, R s { s with waitAttach := b }) (hrs : ∀ s b, R s { s with requestStop := b })
    (hro : ∀ s l, R s { s with routed := l }) (hev : ∀ s l j, R s { s with routed := l, out := s.out ++ [.event j] }) :
    (∀ s s' : Dap σ, (startDebugger cl).run s = (.ok (), s') → R s s') ∧
    (∀ s s' r, Iter cl s r s' → R s s') := by
  have hdreq : ∀ j, Keeps R (sendDapRequest cl j) := fun j => Keeps.bind hR (Keeps.ofRes hR _) fun _ => hreq _
  have hop : ∀ o, Keeps R (dapSem cl o) := by
    intro o
    cases o with
    | forward j => exact Keeps.bind hR (hfwd j) fun _ => Keeps.pure hR _
    | request j => exact Keeps.bind hR (hdreq j) fun _ => Keeps.pure hR _
    | wait cond => exact Keeps.bind hR (hwait cond) fun _ => Keeps.pure hR _
    | parentHeader => exact Keeps.read hR _
  have hinit : Keeps R (handleInitSequence cl) :=
    Keeps.bind hR (hwait _) fun _ => Keeps.bind hR (Keeps.ofRes hR _) fun _ => Keeps.bind hR (hdreq _) fun _ =>
      Keeps.bind hR (hwait _) fun _ => Keeps.bind hR (hwait _) fun _ => Keeps.bind hR (hfwd _) fun _ =>
      Keeps.bind hR (Keeps.ofRes hR _) fun _ => hsend _
  have htail : ∀ b, Keeps R (attachTail cl b) := by
    intro b
    cases b
    · exact Keeps.pure hR ()
    · exact Keeps.bind hR hinit fun _ => Keeps.modify fun s => hwa s _
  have hctl : Keeps R (handleControl cl) := by
    refine Keeps.bind hR hrecv fun raw => Keeps.bind hR (Keeps.read hR _) fun w => ?_
    cases w
    · exact hreq _
    · exact Keeps.bind hR (Keeps.ofRes hR _) fun _ => Keeps.bind hR (Keeps.ofRes hR _) fun _ => Keeps.bind hR (hreq _)
        fun _ => Keeps.bind hR (Keeps.ofRes hR _) fun _ => htail _
  have hmsg : ∀ raw, Keeps R (handleMessage cl raw) := by
    intro raw
    refine Keeps.bind hR (Keeps.ofRes hR _) fun j => Keeps.bind hR (Keeps.ofRes hR _) fun t => ?_
    split
    · exact Keeps.bind hR (Keeps.modify fun s => hev s _ _) fun _ => keeps_dapExec hR hset hop _
    · exact Keeps.bind hR (Keeps.ofRes hR _) fun _ => Keeps.bind hR (Keeps.modify fun s => hrs s _) fun _ =>
        Keeps.bind hR (hsend _) fun _ => Keeps.modify fun s => hro s _
  refine ⟨?_, fun s s' r hi => keeps_iter hR (fun raw => Keeps.bind hR (hmsg raw) fun _ => hpop) (fun a b c => ?_) hi⟩
  · intro s s' h
    have : Keeps R (startDebugger cl) := by
      refine Keeps.bind hR hrecv fun _ => Keeps.bind hR (hsend _) fun _ => Keeps.modify fun s => ?_
      exact hR.trans (hrs s false) (hwa _ _)
    have := this s
    rw [h] at this
    exact this
  · exact Keeps.bind hR (keeps_whenK hR hhdr) fun _ => Keeps.bind hR (keeps_whenK hR hctl) fun _ => keeps_whenK hR hread

/-! ## Forwarding an event -/

/-- The message published for an event. -/
def debugPubAt (cl : Client σ) (s : Dap σ) (parent j : Json) : PubMessage :=
  ⟨lit "debug_event", ⟨headerOf (newXguid (cl.env.guid s.guids)) cl.env.user cl.env.session (cl.env.now s.clocks)
    (lit "debug_event"), parent, .obj [], j, []⟩⟩

/-- The state once the callback has run and the header has been made. -/
def afterCallback (cl : Client σ) (s : Dap σ) (j : Json) : Dap σ :=
  { s with st := (cl.callback j s.st).2, out := s.out ++ [.callback j] }

def afterHeader (cl : Client σ) (s : Dap σ) (j : Json) : Dap σ :=
  { afterCallback cl s j with guids := s.guids + 1, clocks := s.clocks + 1 }

theorem run_forwardEvent (j : Json) (s : Dap σ) :
    (forwardEvent cl j).run s =
      andThen ((cl.callback j s.st).1, afterCallback cl s j) fun _ _ =>
        andThen (dapParent cl s, afterHeader cl s j) fun p s₂ =>
          andThen (serializePub cl.env.C cl.env.J cl.env.auth .strict (debugPubAt cl s p j), s₂) fun w s₃ =>
            (.ok (), { s₃ with out := s₃.out ++ [.pub (debugPubAt cl s p j) w] }) := by
  simp only [forwardEvent, runCallback, dapMakeHeader, dapEmit, run_bind, run_lift, run_readR, run_ofRes, run_modify,
    headerJson_eq]
  rcases hcb : cl.callback j s.st with ⟨r, st'⟩
  cases r <;> simp only [andThen_ok, andThen_exc, andThen_ub, andThen_hang, afterCallback, afterHeader, hcb, debugPubAt,
    dapParent]

/-- The four ways in which forwarding an event can end. -/
theorem forwardEvent_cases (j : Json) (s : Dap σ) :
    ((forwardEvent cl j).run s).2 = afterCallback cl s j ∨ ((forwardEvent cl j).run s).2 = afterHeader cl s j ∨
    ∃ p w, dapParent cl s = .ok p ∧
      serializePub cl.env.C cl.env.J cl.env.auth .strict (debugPubAt cl s p j) = .ok w ∧
      (forwardEvent cl j).run s = (.ok (), { afterHeader cl s j with
        out := s.out ++ [.callback j] ++ [.pub (debugPubAt cl s p j) w] }) := by
  rw [run_forwardEvent]
  cases h1 : (cl.callback j s.st).1 with
  | ok u =>
    rw [andThen_ok]
    cases h2 : dapParent cl s with
    | ok p =>
      rw [andThen_ok]
      cases h3 : serializePub cl.env.C cl.env.J cl.env.auth .strict (debugPubAt cl s p j) with
      | ok w => exact .inr (.inr ⟨p, w, rfl, h3, by rw [andThen_ok]; rfl⟩)
      | exc e => exact .inr (.inl rfl)
      | ub e => exact .inr (.inl rfl)
      | hang => exact .inr (.inl rfl)
    | exc e => exact .inr (.inl rfl)
    | ub e => exact .inr (.inl rfl)
    | hang => exact .inr (.inl rfl)
  | exc e => exact .inl rfl
  | ub e => exact .inl rfl
  | hang => exact .inl rfl

/-! ## The invariant -/

theorem attributed_snoc {env : Env} {out : List DapEv} {e : DapEv} (h : Attributed env out)
    (he : ∀ m w, e = .pub m w → DebugPub env out m w) : Attributed env (out ++ [e]) := by
  intro pre m w post heq
  rcases List.append_eq_append_iff.1 heq with ⟨as, h1, h2⟩ | ⟨bs, h1, h2⟩
  · cases as with
    | nil =>
      simp only [List.nil_append, List.cons.injEq] at h2
      rw [List.append_nil] at h1
      rw [h1]
      exact he m w h2.1
    | cons a as =>
      simp only [List.cons_append, List.cons.injEq, List.nil_eq, List.append_eq_nil_iff] at h2
      exact absurd h2.2.2 (by simp)
  · cases bs with
    | nil =>
      simp only [List.nil_append, List.cons.injEq] at h2
      rw [List.append_nil] at h1
      rw [← h1]
      exact he m w h2.1.symm
    | cons a as =>
      simp only [List.cons_append, List.cons.injEq] at h2
      obtain ⟨rfl, h2⟩ := h2
      exact h pre m w as h1

theorem lastHeader_snoc (out : List DapEv) (e : DapEv) :
    lastHeader (out ++ [e]) = match e with
      | .header h => some h
      | _ => lastHeader out := by
  unfold lastHeader
  rw [List.filterMap_append]
  cases e <;> simp

/-- The publications are attributed and the parent header is the one received last. -/
def EvInv (cl : Client σ) (s : Dap σ) : Prop :=
  Attributed cl.env s.out ∧ s.parentHeader = (lastHeader s.out).getD []

theorem EvInv.parent {s : Dap σ} (h : EvInv cl s) {p : Json} (hp : dapParent cl s = .ok p) :
    parentAfter cl.env.J s.out = some p := by
  unfold dapParent at hp
  rw [h.2] at hp
  unfold parentAfter
  cases hl : lastHeader s.out with
  | none => simpa [hl] using hp
  | some x =>
    cases x with
    | nil => simpa [hl] using hp
    | cons a x =>
      simp only [hl, Option.getD_some, List.isEmpty_cons, Bool.false_eq_true, if_false, Codec.parseZmq] at hp
      cases hpar : cl.env.J.parse (a :: x) with
      | none => simp [hpar] at hp
      | some y =>
        simp only [hpar, Res.ok.injEq] at hp
        simp only [hp, hpar]

theorem EvInv.emit {s : Dap σ} (h : EvInv cl s) {e : DapEv} (he : ∀ m w, e ≠ .pub m w) (hh : ∀ b, e ≠ .header b)
    {s' : Dap σ} (ho : s'.out = s.out ++ [e]) (hp : s'.parentHeader = s.parentHeader) : EvInv cl s' := by
  refine ⟨?_, ?_⟩
  · rw [ho]; exact attributed_snoc h.1 fun m w hc => absurd hc (he m w)
  · rw [ho, hp, h.2, lastHeader_snoc]
    cases e <;> first | rfl | exact absurd rfl (hh _)

theorem EvInv.same {s : Dap σ} (h : EvInv cl s) {s' : Dap σ} (ho : s'.out = s.out)
    (hp : s'.parentHeader = s.parentHeader) : EvInv cl s' :=
  ⟨by rw [ho]; exact h.1, by rw [ho, hp]; exact h.2⟩

theorem evInv_pre : Pre fun s s' : Dap σ => EvInv cl s → EvInv cl s' :=
  ⟨fun _ h => h, fun h₁ h₂ h => h₂ (h₁ h)⟩

theorem evInv_forward (j : Json) : Keeps (fun s s' : Dap σ => EvInv cl s → EvInv cl s') (forwardEvent cl j) := by
  intro s h
  have hcb : EvInv cl (afterCallback cl s j) :=
    h.emit (e := .callback j) (by intro m w hc; cases hc) (by intro b hc; cases hc) rfl rfl
  rcases forwardEvent_cases (cl := cl) j s with h1 | h1 | ⟨p, w, h1, h2, h3⟩
  · rw [h1]; exact hcb
  · rw [h1]; exact hcb.same rfl rfl
  · rw [h3]
    refine ⟨attributed_snoc hcb.1 ?_, ?_⟩
    · intro m w' hc
      cases hc
      refine ⟨rfl, ⟨_, _, rfl⟩, ?_, ⟨s.out, rfl⟩, rfl, rfl, h2⟩
      have hd : dapParent cl (afterCallback cl s j) = .ok p := h1
      exact hcb.parent hd
    · show s.parentHeader = (lastHeader (s.out ++ [.callback j] ++ [_])).getD []
      rw [lastHeader_snoc, lastHeader_snoc]
      exact h.2

theorem wait_same (cond : Json → Res Bool) (s : Dap σ) : SameRest s ((waitForMessage cl cond).run s).2 := by
  rcases wait_cases (cl := cl) cond s with ⟨pre, post, raw, j, _, _, _, _, h⟩ | h
  · rw [h]; exact ⟨rfl, rfl, rfl, rfl, rfl, rfl, rfl, rfl, rfl, rfl, rfl⟩
  · exact h.same

theorem evInv_run : (∀ s s' : Dap σ, (startDebugger cl).run s = (.ok (), s') → EvInv cl s → EvInv cl s') ∧
    (∀ s s' r, Iter cl s r s' → EvInv cl s → EvInv cl s') := by
  refine keeps_run (R := fun s s' => EvInv cl s → EvInv cl s') evInv_pre (fun s st h => h.same rfl rfl) evInv_forward ?_ ?_ ?_
    ?_ ?_ ?_ ?_ (fun s b h => h.same rfl rfl) (fun s b h => h.same rfl rfl) (fun s b h => h.same rfl rfl)
    (fun s l j h => h.emit (e := .event j) (by intro m w hc; cases hc) (by intro b hc; cases hc) rfl rfl)
  · intro b
    exact Keeps.modify fun s h => h.emit (e := .tcp b) (by intro m w hc; cases hc) (by intro b hc; cases hc) rfl rfl
  · intro cond s h
    exact h.same (wait_same cond s).out (wait_same cond s).parentHeader
  · refine Keeps.lift fun s h => ?_
    cases hh : s.hdrIn with
    | nil => exact h
    | cons x r =>
      refine ⟨attributed_snoc h.1 fun m w hc => (by cases hc), ?_⟩
      show x = (lastHeader (s.out ++ [.header x])).getD []
      rw [lastHeader_snoc]; rfl
  · intro b
    refine Keeps.lift fun s h => ?_
    cases s.replyDue with
    | false => exact h
    | true => exact h.emit (e := .reply b) (by intro m w hc; cases hc) (by intro b hc; cases hc) rfl rfl
  · refine Keeps.lift fun s h => ?_
    cases s.replyDue with
    | true => exact h
    | false =>
      cases s.ctlIn with
      | nil => exact h
      | cons x r => exact h.same rfl rfl
  · refine Keeps.lift fun s h => ?_
    cases handleTcp s.queue s.tcpIn with
    | got q cs => exact h.same rfl rfl
    | thrown e q cs => exact h.same rfl rfl
    | blocked => exact h
    | endless => exact h
  · refine Keeps.lift fun s h => ?_
    cases s.queue with
    | nil => exact h
    | cons x q => exact h.same rfl rfl

theorem evInv_reach {s₀ s : Dap σ} (h₀ : EvInv cl s₀) (h : DapReach cl s₀ s) : EvInv cl s := by
  induction h with
  | start h => exact evInv_run.1 _ _ h h₀
  | iter _ h ih => exact evInv_run.2 _ _ _ h ih

end Xeus
