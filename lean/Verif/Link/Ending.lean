import Verif.Link.SafeInv
import Verif.Link.EndSpec
import Verif.Dap.InitProps
import Verif.Dap.RouteLemmas

/-!
# The end of the client's thread: lemmas

No property statements here.
-/

namespace Xeus.Link

open Xeus Xeus.Spec K Link.Spec

variable {τ σ : Type} {d : Dbg.Debugger τ} {cl : Client σ} {α β : Type}

/-! ## `m_request_stop` against the answers given -/

/-- What is known: `m_request_stop`, and whether an answer to `disconnect` has been given. -/
structure End where
  stop : Bool
  said : Bool

def EOk (g : End) (s : Dap σ) : Prop := s.requestStop = g.stop

def saidIn (J : Codec) (ext : List DapEv) : Bool := (repliesOf ext).any (isDisconnectText J)

/-- What an access does. -/
def EMv (cl : Client σ) (g : End) (s s' : Dap σ) (g' : End) : Prop :=
  ∃ ext, s'.out = s.out ++ ext ∧ g' = ⟨s'.requestStop, g.said || saidIn cl.env.J ext⟩

abbrev EWp {α : Type} (cl : Client σ) (Q : End → Res α → Prop) (p : K (Dap σ) α) (g : End) : Prop := Wp EOk (EMv cl) Q p g

/-- Programs that neither ask for the end nor give such an answer. -/
def Even (cl : Client σ) {α : Type} (p : K (Dap σ) α) : Prop := ∀ g, EWp cl (fun g' _ => g' = g) p g

theorem emv_same {g : End} {s s' : Dap σ} (ho : EOk g s) (h1 : s'.requestStop = s.requestStop) {ext : List DapEv}
    (h2 : s'.out = s.out ++ ext) (h3 : saidIn cl.env.J ext = false) : EMv cl g s s' g := by
  refine ⟨ext, h2, ?_⟩
  obtain ⟨a, b⟩ := g
  have ho : s.requestStop = a := ho
  rw [h1, ho, h3, Bool.or_false]

theorem emv_refl {g : End} (s : Dap σ) (h : EOk g s) : EMv cl g s s g := emv_same (ext := []) h rfl (by simp) rfl

theorem Even.bind {p : K (Dap σ) α} {q : α → K (Dap σ) β} (hp : Even cl p) (hq : ∀ a, Even cl (q a)) : Even cl (p >>= q) := by
  intro g
  refine Wp.bind ((hp g).mono fun g' r hg => ?_)
  subst hg
  cases r with
  | ok a => exact hq a _
  | exc e => rfl
  | ub w => rfl
  | hang => rfl

theorem Even.done (r : Res α) : Even cl (K.done r : K (Dap σ) α) := fun _ => rfl
theorem Even.ofRes (r : Res α) : Even cl (K.ofRes r : K (Dap σ) α) := fun _ => rfl
theorem Even.pure (a : α) : Even cl (Pure.pure a : K (Dap σ) α) := fun _ => rfl

theorem Even.attempt {p : K (Dap σ) α} (hp : Even cl p) : Even cl p.attempt := by
  intro g
  refine Wp.attempt ((hp g).mono fun g' r hg => ?_)
  cases r <;> exact hg

theorem Even.read (f : Dap σ → α) : Even cl (K.read f) := fun _ => Wp.read emv_refl fun _ _ => rfl
theorem Even.readR (f : Dap σ → Res α) : Even cl (K.readR f) := fun _ => Wp.readR emv_refl fun _ _ _ => rfl

theorem Even.lift {f : Dap σ → Res α × Dap σ}
    (h : ∀ s, ∃ ext, (f s).2.requestStop = s.requestStop ∧ (f s).2.out = s.out ++ ext ∧ saidIn cl.env.J ext = false) :
    Even cl (K.lift f) := by
  intro g
  refine Wp.lift fun s hs _ => ?_
  obtain ⟨ext, h1, h2, h3⟩ := h s
  exact ⟨g, emv_same hs h1 h2 h3, rfl⟩

theorem Even.silent {f : Dap σ → Res α × Dap σ} (h : ∀ s, (f s).2.requestStop = s.requestStop ∧ (f s).2.out = s.out) :
    Even cl (K.lift f) :=
  Even.lift fun s => ⟨[], (h s).1, by simp [(h s).2], rfl⟩

theorem Even.modify {f : Dap σ → Dap σ} (h : ∀ s, (f s).requestStop = s.requestStop ∧ (f s).out = s.out) :
    Even cl (K.modify f) := Even.silent h

theorem even_emit {e : DapEv} (h : ∀ b, e ≠ .reply b) : Even cl (dapEmit (σ := σ) e) :=
  Even.lift fun s => ⟨[e], rfl, rfl, by cases e <;> first | exact absurd rfl (h _) | rfl⟩

/-- Sending an answer that does not concern `disconnect`. -/
theorem even_send {b : Str} (h : isDisconnectText cl.env.J b = false) : Even cl (controllerSend (σ := σ) b) := by
  refine Even.lift fun s => ?_
  by_cases hd : s.replyDue = true
  · simp only [hd, if_true]
    exact ⟨[.reply b], trivial, rfl, by simp [saidIn, repliesOf, h]⟩
  · simp only [hd, if_false, Bool.false_eq_true]
    exact ⟨[], by simp, by simp, rfl⟩

theorem even_forward (j : Json) : Even cl (forwardEvent cl j) :=
  Even.bind (Even.lift fun s => ⟨[.callback j], rfl, rfl, rfl⟩) fun _ => Even.bind (Even.silent fun s => ⟨rfl, rfl⟩) fun _ =>
    Even.bind (Even.readR _) fun _ => Even.bind (Even.ofRes _) fun _ => even_emit (fun _ h => by cases h)

theorem even_request (j : Json) : Even cl (sendDapRequest cl j) :=
  Even.bind (Even.ofRes _) fun _ => even_emit (fun _ h => by cases h)

theorem waitLoop_stop (cond : Json → Res Bool) (n : Nat) (s : Dap σ) :
    (waitLoop cl cond n s).2.requestStop = s.requestStop := by
  induction n generalizing s with
  | zero => rfl
  | succ n ih =>
    simp only [waitLoop]
    split
    · split
      · rfl
      · exact ih (afterDrain s _ _ _)
      all_goals rfl
    all_goals rfl

theorem wait_stop (cond : Json → Res Bool) (s : Dap σ) :
    ((waitForMessage cl cond).run s).2.requestStop = s.requestStop ∧ ((waitForMessage cl cond).run s).2.out = s.out := by
  simp only [waitForMessage, run_lift]
  split
  · exact ⟨rfl, rfl⟩
  · exact ⟨waitLoop_stop cond _ s, (waitLoop_silent cond _ s).2.2.2.2⟩
  all_goals exact ⟨rfl, rfl⟩

theorem even_wait (cond : Json → Res Bool) : Even cl (waitForMessage cl cond) := by
  refine Even.silent fun s => ?_
  have := wait_stop (cl := cl) cond s
  simpa only [waitForMessage, run_lift] using this

/-- Waiting, and what is found. -/
theorem ewp_wait (cond : Json → Res Bool) (g : End) :
    EWp cl (fun g' r => g' = g ∧ ∀ j, r = .ok j → ∃ raw, cl.env.J.parse raw = some j ∧ cond j = .ok true)
      (waitForMessage cl cond) g := by
  refine Wp.lift fun s hs _ => ⟨g, ?_, rfl, ?_⟩
  · have := wait_stop (cl := cl) cond s
    simp only [waitForMessage, run_lift] at this
    exact emv_same (ext := []) hs this.1 (by simpa using this.2) rfl
  · intro j hj
    have hc := wait_cases (cl := cl) cond s
    simp only [waitForMessage, run_lift] at hc
    rcases hc with ⟨_, _, raw, j', _, h2, h3, _, h5⟩ | h
    · rw [h5] at hj
      cases hj
      exact ⟨raw, h2, h3⟩
    · obtain ⟨_, _, _, _, _, _, _, _, _, _, h4, _⟩ := h.moved
      obtain ⟨_, raw, _, h5, h6⟩ := h4 j hj
      exact ⟨raw, h5, h6⟩

theorem even_sem (o : DapOp) : Even cl (dapSem cl o) := by
  cases o with
  | forward j => exact Even.bind (even_forward j) fun _ => Even.pure _
  | request j => exact Even.bind (even_request j) fun _ => Even.pure _
  | wait cond => exact Even.bind (even_wait cond) fun _ => Even.pure _
  | parentHeader => exact Even.read _

theorem even_exec (p : Prog σ DapOp α) : Even cl (dapExec cl p) := by
  induction p with
  | ret a => exact Even.pure a
  | throw e => exact Even.done _
  | ub w => exact Even.ofRes _
  | hang => exact Even.ofRes _
  | get k ih => exact Even.bind (Even.read _) fun s => ih s
  | set st k ih => exact Even.bind (Even.modify fun _ => ⟨rfl, rfl⟩) fun _ => ih
  | call o k ih => exact Even.bind (even_sem o).attempt fun r => ih r

/-- The text of an answer to `attach` is not one to `disconnect`. -/
theorem attach_text (hK : LawfulCodec cl.env.J) {raw b : Str} {j : Json} (h : cl.env.J.parse raw = some j) (ha : isAttach j = .ok true)
    (hb : cl.env.J.dump .strict j = some b) : isDisconnectText cl.env.J b = false := by
  obtain ⟨h1, h2⟩ := hK.parse_wf _ _ h
  obtain ⟨b', h3, h4⟩ := hK.roundtrip .strict j h1 h2
  rw [hb] at h3
  cases h3
  have hm := twoMembers_ok_true.1 ha
  simp only [Bool.and_eq_true, memberIs, decide_eq_true_eq] at hm
  unfold isDisconnectText
  rw [h4]
  simp only [memberIs, hm.1, hm.2]
  decide

theorem even_init (hK : LawfulCodec cl.env.J) : Even cl (handleInitSequence cl) := by
  refine Even.bind (even_wait _) fun _ => Even.bind (Even.ofRes _) fun _ => Even.bind (even_request _) fun _ =>
    Even.bind (even_wait _) fun _ => ?_
  intro g
  refine Wp.bind ((ewp_wait isAttach g).mono fun g' r hr => ?_)
  obtain ⟨rfl, hr⟩ := hr
  cases r with
  | exc e => rfl
  | ub w => rfl
  | hang => rfl
  | ok j =>
    obtain ⟨raw, h1, h2⟩ := hr j rfl
    refine Even.bind (even_forward _) (fun _ => ?_) g'
    intro g
    refine Wp.bind (Wp.ofRes ?_)
    cases hb : cl.env.J.dump .strict j with
    | none => simp only [Codec.writeZmq, hb]; rfl
    | some b => simp only [Codec.writeZmq, hb]; exact even_send (attach_text hK h1 h2 hb) g

theorem even_attachTail (hK : LawfulCodec cl.env.J) (b : Bool) : Even cl (attachTail cl b) := by
  cases b
  · exact Even.pure ()
  · exact Even.bind (even_init hK) fun _ => Even.modify fun _ => ⟨rfl, rfl⟩

theorem even_control (hK : LawfulCodec cl.env.J) : Even cl (handleControl cl) := by
  refine Even.bind (Even.silent fun s => ?_) fun raw => Even.bind (Even.read _) fun w => ?_
  · by_cases hd : s.replyDue = true
    · simp [hd]
    · simp only [hd, if_false, Bool.false_eq_true]
      cases s.ctlIn <;> exact ⟨rfl, rfl⟩
  · split
    · exact Even.bind (Even.ofRes _) fun _ => Even.bind (Even.ofRes _) fun _ => Even.bind (even_emit fun _ h => by cases h) fun _ =>
        Even.bind (Even.ofRes _) fun _ => even_attachTail hK _
    · exact even_emit fun _ h => by cases h

theorem even_read : Even cl (readMessages (σ := σ)) := by
  refine Even.silent fun s => ?_
  cases handleTcp s.queue s.tcpIn <;> exact ⟨rfl, rfl⟩

theorem even_header : Even cl (handleHeader (σ := σ)) := by
  refine Even.lift fun s => ?_
  cases s.hdrIn with
  | nil => exact ⟨[], rfl, by simp, rfl⟩
  | cons x r => exact ⟨[.header x], rfl, rfl, rfl⟩

theorem even_afterPoll (hK : LawfulCodec cl.env.J) (a b c : Bool) : Even cl (afterPoll cl a b c) := by
  refine Even.bind ?_ fun _ => Even.bind ?_ fun _ => ?_
  · cases a
    · exact Even.pure ()
    · exact even_header
  · cases b
    · exact Even.pure ()
    · exact even_control hK
  · cases c
    · exact Even.pure ()
    · exact even_read

/-! ## A message of the adapter -/

/-- The two agree, unless it has failed. -/
def Agree (g : End) (r : Res Unit) : Prop := r = .ok () → g.stop = g.said

theorem Even.agree {p : K (Dap σ) Unit} (hp : Even cl p) (b : Bool) : EWp cl Agree p ⟨b, b⟩ :=
  (hp ⟨b, b⟩).mono fun g _ hg _ => by rw [hg]

theorem ewp_passOn {raw : Str} {j c : Json} (hj : cl.env.J.parse raw = some j) (ht : memberIs j "type" "event" = false)
    (hc : memberIs j "command" "disconnect" = isText c "disconnect") (b : Bool) : EWp cl Agree (passOn raw c) ⟨b, b⟩ := by
  have hdt : isDisconnectText cl.env.J raw = isText c "disconnect" := by
    unfold isDisconnectText
    rw [hj]
    simp [ht, hc]
  refine Wp.bind (Wp.modify (g' := ⟨b || isText c "disconnect", b⟩) (fun s hs => ?_) ?_)
  · have hs : s.requestStop = b := hs
    exact ⟨[], by simp, by simp [hs, saidIn, repliesOf]⟩
  · refine Wp.bind (Wp.lift fun s hs _ => ?_)
    have hs : s.requestStop = (b || isText c "disconnect") := hs
    by_cases hd : s.replyDue = true
    · simp only [hd, if_true]
      refine ⟨⟨b || isText c "disconnect", b || isText c "disconnect"⟩, ⟨[.reply raw], rfl, by simp [hs, saidIn, repliesOf, hdt]⟩, ?_⟩
      exact (Even.modify fun _ => ⟨rfl, rfl⟩ : Even cl _).agree _
    · simp only [hd, if_false, Bool.false_eq_true]
      exact ⟨_, emv_refl s hs, fun h => by cases h⟩

theorem ewp_process (raw : Str) (b : Bool) : EWp cl Agree (processOne cl raw) ⟨b, b⟩ := by
  have tail : ∀ g : End, ∀ r : Res Unit, Agree g r → Then EOk (EMv cl) Agree (fun _ => popFront) g r := by
    intro g r hg
    cases r with
    | ok u =>
      obtain ⟨x, y⟩ := g
      have hxy : x = y := hg rfl
      subst hxy
      have : Even cl (popFront (σ := σ)) := Even.silent fun s => by cases s.queue <;> exact ⟨rfl, rfl⟩
      exact this.agree x
    | exc e => exact fun h => by cases h
    | ub w => exact fun h => by cases h
    | hang => exact fun h => by cases h
  refine Wp.bind (Wp.mono tail ?_)
  refine Wp.bind (Wp.ofRes ?_)
  cases hp : cl.env.J.parse raw with
  | none => simp only [Codec.parseZmq, hp]; exact fun h => by cases h
  | some j =>
    simp only [Codec.parseZmq, hp]
    refine Wp.bind (Wp.ofRes ?_)
    have hobj : ∀ kvs, j = .obj kvs → Then EOk (EMv cl) Agree (fun type => if isText type "event" = true then passEvent cl raw j
        else do let command ← K.ofRes (j.idx (lit "command")); passOn raw command) ⟨b, b⟩ (j.idx (lit "type")) := by
      rintro kvs rfl
      rw [show (Json.obj kvs).idx (lit "type") = _ from idx_obj kvs (lit "type")]
      show EWp cl Agree (if isText _ "event" = true then _ else _) _
      rw [isText_getD]
      split
      · refine (Even.bind (Even.lift fun s => ⟨[.event _], rfl, rfl, rfl⟩) fun _ => even_exec _ : Even cl _).agree b
      · rename_i hne
        refine Wp.bind (Wp.ofRes ?_)
        rw [idx_obj]
        refine ewp_passOn hp (by simpa [memberIs] using hne) ?_ b
        rw [isText_getD]; rfl
    cases j with
    | obj kvs => exact hobj kvs rfl
    | null =>
      show EWp cl Agree (if isText .null "event" = true then _ else _) _
      rw [if_neg (by decide)]
      refine Wp.bind (Wp.ofRes ?_)
      exact ewp_passOn hp rfl rfl b
    | bool _ => exact fun h => by cases h
    | int _ => exact fun h => by cases h
    | float _ => exact fun h => by cases h
    | str _ => exact fun h => by cases h
    | arr _ => exact fun h => by cases h

/-! ## The invariant -/

/-- What is known of the client wherever it is. -/
def Ending (cl : Client σ) (s : Link τ σ) : Prop :=
  match s.pc with
  | .off => LinkEv.dbg (.start true) ∈ s.log → disconnected cl.env.J (sinceStart s.log) = true
  | .top | .queue => s.dap.requestStop = disconnected cl.env.J (sinceStart s.log)
  | .io p | .msg p => EWp cl Agree p ⟨s.dap.requestStop, disconnected cl.env.J (sinceStart s.log)⟩
  | .failed _ => True

theorem disconnected_append (J : Codec) (a b : List LinkEv) : disconnected J (a ++ b) = (disconnected J a || disconnected J b) := by
  simp only [disconnected, replied_append, List.any_append]

theorem disconnected_entries {J : Codec} {c c' : Dap σ} {ext : List DapEv} (h : c'.out = c.out ++ ext) :
    disconnected J (dapEntries c c') = saidIn J ext := by
  have : ∀ (l : List Str) (ext : List DapEv), replied (l.map .took ++ ext.map .cli) = repliesOf ext := by
    intro l ext
    rw [replied_append]
    have h1 : replied (l.map LinkEv.took) = [] := by
      induction l with
      | nil => rfl
      | cons x l ih => exact ih
    rw [h1, List.nil_append]
    unfold replied repliesOf
    rw [List.filterMap_map]
    congr 1
    funext e
    cases e <;> rfl
  unfold disconnected dapEntries saidIn
  rw [h, List.drop_left' rfl, this]

theorem elsewhere_dbg (a b : Dbg.State τ) : ∀ e ∈ dbgEntries a b, Elsewhere e := by
  intro e he
  simp only [dbgEntries, List.mem_append, List.mem_map] at he
  rcases he with (⟨_, _, rfl⟩ | ⟨_, _, rfl⟩) | ⟨_, _, rfl⟩ <;> trivial

theorem start_entries (a b : Dbg.State τ) : LinkEv.dbg (.start true) ∈ dbgEntries a b ↔ Starts a b := by
  simp only [dbgEntries, Starts, List.mem_append, List.mem_map]
  constructor
  · rintro ((⟨_, _, h⟩ | ⟨_, _, h⟩) | ⟨e, he, h⟩)
    · cases h
    · cases h
    · cases h; exact he
  · exact fun h => .inr ⟨_, h, rfl⟩

theorem ending_quiet {s s' : Link τ σ} {es : List LinkEv} (h : Ending cl s) (h1 : s'.pc = s.pc)
    (h2 : s'.dap.requestStop = s.dap.requestStop) (h3 : s'.log = s.log ++ es) (h4 : replied es = [])
    (h5 : LinkEv.dbg (.start true) ∉ es) : Ending cl s' := by
  have hd : disconnected cl.env.J (sinceStart s'.log) = disconnected cl.env.J (sinceStart s.log) := by
    rw [h3, sinceStart_append h5, disconnected_append]
    have : disconnected cl.env.J es = false := by simp [disconnected, h4]
    rw [this, Bool.or_false]
  have hm : LinkEv.dbg (.start true) ∈ s'.log ↔ LinkEv.dbg (.start true) ∈ s.log := by
    rw [h3, List.mem_append]
    exact ⟨fun h => h.elim id fun h => absurd h h5, .inl⟩
  unfold Ending at h ⊢
  rw [h1, h2, hd, hm]
  exact h

theorem sinceStart_within {log es : List LinkEv} (h : LinkEv.dbg (.start true) ∈ es) : ∀ e ∈ sinceStart (log ++ es), e ∈ es := by
  obtain ⟨a, b, rfl⟩ := List.append_of_mem h
  have : log ++ (a ++ .dbg (.start true) :: b) = (log ++ a ++ [.dbg (.start true)]) ++ b := by simp
  rw [this]
  intro e he
  by_cases hb : LinkEv.dbg (.start true) ∈ b
  · unfold sinceStart at he
    rw [List.reverse_append, List.mem_reverse] at he
    have hb' : ¬ ∀ x ∈ b.reverse, (decide (x ≠ LinkEv.dbg (.start true))) = true := fun hx => by
      have := hx _ (List.mem_reverse.2 hb)
      simp at this
    have key : ∀ (l r : List LinkEv), LinkEv.dbg (.start true) ∈ l →
        (l ++ r).takeWhile (fun e => decide (e ≠ LinkEv.dbg (.start true))) = l.takeWhile (fun e => decide (e ≠ LinkEv.dbg (.start true))) := by
      intro l r hl
      induction l with
      | nil => cases hl
      | cons x l ih =>
        rw [List.cons_append, List.takeWhile_cons, List.takeWhile_cons]
        by_cases hx : x = LinkEv.dbg (.start true)
        · simp [hx]
        · have hl' : LinkEv.dbg (.start true) ∈ l := by
            rcases List.mem_cons.1 hl with hl | hl
            · exact absurd hl.symm hx
            · exact hl
          simp only [ne_eq, hx, not_false_eq_true, decide_true, if_true]
          rw [← ih hl']
    rw [key _ _ (List.mem_reverse.2 hb)] at he
    have := List.mem_reverse.1 ((List.takeWhile_sublist _).subset he)
    simp [this]
  · rw [sinceStart_append hb, sinceStart_start, List.nil_append] at he
    simp [he]

theorem start_stop {c c' : Dap σ} (h : (startDebugger cl).run c = (.ok (), c')) : c'.requestStop = false := by
  simp only [startDebugger, run_bind] at h
  rcases h1 : (controllerRecv (σ := σ)).run c with ⟨r1, c1⟩
  rw [h1] at h
  cases r1 with
  | ok x =>
    simp only [andThen_ok] at h
    rcases h2 : (controllerSend (σ := σ) (lit "ACK")).run c1 with ⟨r2, c2⟩
    rw [h2] at h
    cases r2 with
    | ok x =>
      simp only [andThen_ok, run_modify, Prod.mk.injEq, true_and] at h
      rw [← h]
    | exc e => simp at h
    | ub e => simp at h
    | hang => simp at h
  | exc e => simp at h
  | ub e => simp at h
  | hang => simp at h

theorem ending_step (hK : LawfulCodec cl.env.J) {s s' : Link τ σ} (h : Ending cl s) (hs : Step d cl s s') : Ending cl s' := by
  have walk : ∀ {p p' : K (Dap σ) Unit} {c : Dap σ}, EWp cl Agree p ⟨s.dap.requestStop, disconnected cl.env.J (sinceStart s.log)⟩ →
      Ready p s.dap → p.step s.dap = some (p', c) →
      EWp cl Agree p' ⟨c.requestStop, disconnected cl.env.J (sinceStart (s.log ++ dapEntries s.dap c))⟩ := by
    intro p p' c hw hr hst
    obtain ⟨g', ⟨ext, h1, h2⟩, h3⟩ := hw.step rfl hr hst
    have hns : LinkEv.dbg (.start true) ∉ dapEntries s.dap c := by
      simp only [dapEntries, List.mem_append, List.mem_map]
      rintro (⟨_, _, h⟩ | ⟨_, _, h⟩) <;> cases h
    rw [sinceStart_append hns, disconnected_append, disconnected_entries h1, ← h2]
    exact h3
  cases hs with
  | call header m _ => exact ending_quiet h rfl rfl rfl rfl (by simp)
  | ret _ _ _ => exact ending_quiet h rfl rfl rfl rfl (by simp)
  | @dbg p p' t hp hr hst hns =>
    exact ending_quiet h rfl rfl rfl (elsewhere_counts (elsewhere_dbg _ _)).2.1 (fun hx => hns ((start_entries _ _).1 hx))
  | @start p p' t c q hp hr hst hss hoff hrun =>
    show c.requestStop = disconnected cl.env.J (sinceStart (s.log ++ dbgEntries s.dbg t))
    have hw : ∀ e ∈ sinceStart (s.log ++ dbgEntries s.dbg t), Elsewhere e := fun e he =>
      elsewhere_dbg _ _ e (sinceStart_within ((start_entries _ _).2 hss) e he)
    have := (elsewhere_counts hw).2.1
    rw [start_stop hrun]
    simp [disconnected, this]
  | @io p p' c hp hr hst =>
    unfold Ending at h
    rw [hp] at h
    exact walk h hr hst
  | @msg p p' c hp hr hst =>
    unfold Ending at h
    rw [hp] at h
    exact walk h hr hst
  | @poll a b c hp hrs hok =>
    unfold Ending at h
    rw [hp] at h
    show EWp cl Agree _ ⟨_, _⟩
    have h : s.dap.requestStop = disconnected cl.env.J (sinceStart s.log) := h
    rw [← h]
    exact (even_afterPoll hK a b c).agree _
  | polled hp =>
    unfold Ending at h
    rw [hp] at h
    exact (show Agree _ _ from h) rfl
  | @next raw q hp hq =>
    unfold Ending at h
    rw [hp] at h
    show EWp cl Agree _ ⟨_, _⟩
    have h : s.dap.requestStop = disconnected cl.env.J (sinceStart s.log) := h
    rw [← h]
    exact ewp_process raw _
  | handled hp =>
    unfold Ending at h
    rw [hp] at h
    exact (show Agree _ _ from h) rfl
  | emptied hp hq =>
    unfold Ending at h
    rw [hp] at h
    exact h
  | fail _ _ => trivial
  | leave hp hrs =>
    unfold Ending at h
    rw [hp] at h
    intro _
    exact (show s.dap.requestStop = _ from h) ▸ hrs
  | arrive bytes hp => exact ending_quiet h rfl rfl rfl rfl (by simp)
  | user u threads files v => exact ending_quiet (es := []) h rfl rfl (by simp) rfl (by simp)

theorem ending_reach (hK : LawfulCodec cl.env.J) {u : τ} {files : Str → Option Str} {v : σ} {s : Link τ σ}
    (h : Reach d cl u files v s) : Ending cl s := by
  induction h with
  | init => intro hx; cases hx
  | step _ hs ih => exact ending_step hK ih hs

end Xeus.Link
