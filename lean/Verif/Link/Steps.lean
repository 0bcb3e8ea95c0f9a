import Verif.Link.Invariant

/-!
# The debugger and the client together: the invariant holds in every reachable state

No property statements here.
-/

namespace Xeus.Link

open Xeus Xeus.Spec K Link.Spec

variable {τ σ : Type} {d : Dbg.Debugger τ} {cl : Client σ}

theorem Control.silent {s s' : Link τ σ} (h : Control d s) (h1 : s'.ctl = s.ctl) (h2 : s'.dbg.started = s.dbg.started)
    (h3 : exchanged s'.log = exchanged s.log) (h4 : s'.dap.hdrIn = s.dap.hdrIn) (h5 : s'.dap.ctlIn = s.dap.ctlIn)
    (h6 : s'.dap.replyDue = s.dap.replyDue) (h7 : s'.dbg.acks = s.dbg.acks) (h8 : s'.dbg.replies = s.dbg.replies) : Control d s' := by
  cases h with
  | free rounds a b c e => exact .free rounds (h1.trans a) (h2 ▸ b) (h3 ▸ c) (e.congr h4 h5 h6 h7 h8)
  | busy rounds b header m g part p a c e tr f k l =>
    exact .busy rounds b header m g part p (h1.trans a) c e tr (h2.trans f) (h3 ▸ k) (l.congr h4 h5 h6 h7 h8)

theorem Control.congr {s s' : Link τ σ} (h : Control d s) (h1 : s'.ctl = s.ctl) (h2 : s'.dbg.started = s.dbg.started)
    (h3 : s'.log = s.log) (h4 : s'.dap.hdrIn = s.dap.hdrIn) (h5 : s'.dap.ctlIn = s.dap.ctlIn)
    (h6 : s'.dap.replyDue = s.dap.replyDue) (h7 : s'.dbg.acks = s.dbg.acks) (h8 : s'.dbg.replies = s.dbg.replies) : Control d s' :=
  h.silent h1 h2 (congrArg exchanged h3) h4 h5 h6 h7 h8

theorem client_congr {s s' : Link τ σ} (h : Client' cl s) (h1 : s'.pc = s.pc) (h2 : s'.dap.parentHeader = s.dap.parentHeader)
    (h3 : s'.log = s.log) : Client' cl s' := by
  unfold Client' at h ⊢
  rw [h1, h2, h3]
  exact h

theorem client_log {s s' : Link τ σ} {ext : List LinkEv} (h : Client' cl s) (h1 : s'.pc = s.pc)
    (h2 : s'.dap.parentHeader = s.dap.parentHeader) (h3 : s'.log = s.log ++ ext) (hc : clientLog ext = []) : Client' cl s' := by
  unfold Client' at h ⊢
  rw [h1, h2, h3]
  revert h
  cases s.pc with
  | io p => exact fun ⟨q, hq, hv⟩ => ⟨q, hq, verb_quiet hv hc⟩
  | msg p => exact fun ⟨q, hq, hv⟩ => ⟨q, hq, verb_quiet hv hc⟩
  | failed r => exact fun ⟨q, hv⟩ => ⟨q, verb_quiet hv hc⟩
  | off => exact fun hv => verb_quiet hv hc
  | top => exact fun hv => verb_quiet hv hc
  | queue => exact fun hv => verb_quiet hv hc

theorem client_step {s : Link τ σ} {c : Dap σ} {pend : Option Str} {g' : Cli} (pc : Pc σ) (h : Inv d cl s) (hv : Verb s.log pend)
    (hm : CMv cl ⟨s.dap.parentHeader, pend⟩ s.dap c g') :
    Control d { s with dap := c, pc := pc, dbg := toDbg s.dap c s.dbg, log := s.log ++ dapEntries s.dap c } ∧
      g'.h = c.parentHeader ∧ c.parentHeader = lastHdr (s.log ++ dapEntries s.dap c) ∧
      Attr cl.env.J (s.log ++ dapEntries s.dap c) ∧ Verb (s.log ++ dapEntries s.dap c) g'.pend := by
  cases h.control with
  | free rounds a b e f =>
    obtain ⟨es, as, rs, part', h1, h2, h3, h4, h5, h6, h7⟩ := net_dap f hm rfl h.parent h.attr hv
    obtain ⟨k1, k2⟩ := dapDid_entries h1 s.dbg
    rw [k1]
    refine ⟨.free rounds a ?_ ?_ ?_, h4, h5, h6, h7⟩
    · rw [k2]; exact b
    · show exchanged (s.log ++ es) = _
      have hp : part' = [] := by cases h3; rfl
      rw [hp] at h2
      rw [exchanged_append, e]
      have : exchanged es = [] := by simpa using h2.symm
      rw [this, List.append_nil]
    · have hp : part' = [] := by cases h3; rfl
      rw [hp] at h3
      rw [k2]
      exact h3
  | busy rounds b header m g part p a e f tr k l n =>
    obtain ⟨es, as, rs, part', h1, h2, h3, h4, h5, h6, h7⟩ := net_dap n hm rfl h.parent h.attr hv
    obtain ⟨k1, k2⟩ := dapDid_entries h1 s.dbg
    rw [k1]
    refine ⟨.busy rounds b header m g part' p a e f tr ?_ ?_ ?_, h4, h5, h6, h7⟩
    · rw [k2]; exact k
    · show exchanged (s.log ++ es) = _
      rw [exchanged_append, l, h2, List.append_assoc]
    · rw [k2]; exact h3

theorem clientLog_call (header m : Json) : clientLog [.call header m] = [] := rfl

/-- `start_debugger` up to the loop, when its first message has come. -/
theorem start_runs {c c' : Dap σ} {q : Str} (hr : c.replyDue = false) (hc : c.ctlIn = [])
    (h : (startDebugger cl).run { c with ctlIn := c.ctlIn ++ [q] } = (.ok (), c')) :
    c' = { c with ctlIn := [], replyDue := false, out := c.out ++ [.reply (lit "ACK")], requestStop := false, waitAttach := cl.parallel } := by
  simp only [startDebugger, run_bind, controllerRecv, run_lift, hr, hc, List.nil_append, Bool.false_eq_true, if_false, andThen_ok,
    controllerSend, if_true, run_modify, Prod.mk.injEq, true_and] at h
  exact h.symm

theorem inv_step (hd : Dbg.Spec.Local d) {s s' : Link τ σ} (h : Inv d cl s) (hs : Step d cl s s') : Inv d cl s' := by
  cases hs with
  | call header m hf =>
    cases h.control with
    | busy _ _ _ _ _ _ _ a => rw [hf] at a; cases a
    | free rounds a b e f =>
      refine ⟨.busy rounds s.dbg.started header m ⟨s.dbg.started, .idle, []⟩ [] _ rfl b (rwp_request hd header m _) (trace_init _ _) rfl ?_ f,
        client_log h.client rfl rfl rfl rfl, ?_, ?_⟩
      · show exchanged (s.log ++ [.call header m]) = _
        rw [exchanged_append, e, happens_append, List.append_nil, happens_one]
        rfl
      · exact h.parent.trans (lastHdr_skip fun e he x => by rw [List.mem_singleton.1 he]; simp).symm
      · exact attr_snoc h.attr fun m w h => by cases h
  | @ret r hp hu hh =>
    cases h.control with
    | free _ a => rw [hp] at a; cases a
    | busy rounds b header m g part p a e f tr k l n =>
      rw [hp] at a
      cases a
      have hg : Good d header m b g r := f
      rw [hg.idle] at n
      have hpart : part = [] := by cases n; rfl
      subst hpart
      refine ⟨.free (rounds ++ (.call header m :: (g.tr ++ [.ret r]))) rfl ?_ ?_ n,
        client_log h.client rfl rfl rfl rfl, ?_, ?_⟩
      · show Calls d _ s.dbg.started
        rw [k]; exact .call e hg tr
      · show exchanged (s.log ++ [.ret r]) = _
        rw [exchanged_append, l, List.append_nil]
        have : rounds ++ .call header m :: (g.tr ++ [.ret r]) = (rounds ++ .call header m :: g.tr) ++ [.ret r] := by simp
        rw [this, happens_append _ [_], happens_one]
        rfl
      · exact h.parent.trans (lastHdr_skip fun e he x => by rw [List.mem_singleton.1 he]; simp).symm
      · exact attr_snoc h.attr fun m w h => by cases h
  | @dbg p p' t hp hr hst hns =>
    cases h.control with
    | free _ a => rw [hp] at a; cases a
    | busy rounds b header m g part p a e f tr k l n =>
      rw [hp] at a
      cases a
      obtain ⟨g', hm, hw⟩ := f.step ⟨k, n.arrived⟩ hr hst
      obtain ⟨es, hs, rs, part', h1, h2, h3, h4⟩ := net_dbg n hm
      obtain ⟨k1, k2⟩ := dbgDid_entries h1 s.dap
      obtain ⟨c1, c2, c3⟩ := clientLog_dbg es (dbgDid_kind h1)
      rw [k1, k2]
      refine ⟨.busy rounds b header m g' part' p' rfl e hw (trace_step tr hm) h2 ?_ h4, client_log h.client rfl rfl rfl c1, ?_, ?_⟩
      · show exchanged (s.log ++ es) = _
        rw [exchanged_append, l, c2]
        have e1 : rounds ++ Round.call header m :: g.tr = (rounds ++ [.call header m]) ++ g.tr := by simp
        have e2 : rounds ++ Round.call header m :: g'.tr = (rounds ++ [.call header m]) ++ g'.tr := by simp
        rw [e1, e2, happens_append _ g.tr, happens_append _ g'.tr, List.append_assoc _ (happens g'.tr), h3]
        simp
      · exact h.parent.trans (lastHdr_skip fun e he x => c3 e he _).symm
      · exact attr_append h.attr (fun e he x => c3 e he _) fun e he m w hem => absurd hem (c3 e he _)
  | @start p p' t c q hp hr hst hss hoff hrun =>
    cases h.control with
    | free _ a => rw [hp] at a; cases a
    | busy rounds b header m g part p a e f tr k l n =>
      rw [hp] at a
      cases a
      obtain ⟨g', hm, hw⟩ := f.step ⟨k, n.arrived⟩ hr hst
      obtain ⟨es, hs, rs, part', h1, h2, h3, h4⟩ := net_dbg n hm
      obtain ⟨k1, k2⟩ := dbgDid_entries h1 s.dap
      obtain ⟨c1, c2, c3⟩ := clientLog_dbg es (dbgDid_kind h1)
      have hidle : g.ph = .idle ∧ g'.ph = .idle ∧ hs = [] ∧ rs = [] := by
        unfold Starts at hss
        cases h1 with
        | @mk acks answers outs _ _ i3 =>
          rw [i3, List.drop_left' rfl] at hss
          have solve : ∀ e, t.out = s.dbg.out ++ [e] → outs = [e] := fun e he => List.append_cancel_left (i3.symm.trans he)
          have solve' : t.out = s.dbg.out → outs = [] := fun he => by
            have := i3.symm.trans he
            simpa using this
          cases hm with
          | quiet q1 q2 q3 q4 q5 => rw [solve' q5] at hss; cases hss
          | start q1 q2 q3 q4 q5 => rw [solve _ q5]; exact ⟨q1, rfl, rfl, rfl⟩
          | stop q1 q2 q3 q4 q5 => rw [solve _ q5] at hss; simp at hss
          | header q0 q1 q2 q3 q4 q5 => rw [solve _ q5] at hss; simp at hss
          | request q0 q1 q2 q3 q4 q5 => rw [solve _ q5] at hss; simp at hss
          | acked q1 q2 q3 q4 q5 => rw [solve' q5] at hss; cases hss
          | answered q1 q2 q3 q4 q5 => rw [solve' q5] at hss; cases hss
      obtain ⟨hi, hi', rfl, rfl⟩ := hidle
      have hnet : s.dap.ctlIn = [] ∧ s.dap.replyDue = false := by
        rw [hi] at n
        cases n with
        | idle _ b c => exact ⟨b, c⟩
      have hc := start_runs hnet.2 hnet.1 hrun
      have hcl : Verb s.log none := by
        have := h.client
        unfold Client' at this
        rw [hoff] at this
        exact this
      rw [k1]
      refine ⟨.busy rounds b header m g' part' p' rfl e hw (trace_step tr hm) h2 ?_ ?_, verb_quiet hcl c1, ?_, ?_⟩
      · show exchanged (s.log ++ es) = _
        rw [exchanged_append, l, c2]
        have e1 : rounds ++ Round.call header m :: g.tr = (rounds ++ [.call header m]) ++ g.tr := by simp
        have e2 : rounds ++ Round.call header m :: g'.tr = (rounds ++ [.call header m]) ++ g'.tr := by simp
        rw [e1, e2, happens_append _ g.tr, happens_append _ g'.tr, List.append_assoc _ (happens g'.tr), h3]
        simp
      · subst hc
        refine h4.congr ?_ ?_ ?_ rfl rfl
        · simp
        · simp [hnet.1]
        · simp [hnet.2]
      · subst hc
        exact h.parent.trans (lastHdr_skip fun e he x => c3 e he _).symm
      · exact attr_append h.attr (fun e he x => c3 e he _) fun e he m w hem => absurd hem (c3 e he _)
  | @io p p' c hp hr hst =>
    have hcl := h.client
    unfold Client' at hcl
    rw [hp] at hcl
    obtain ⟨pend, hw, hv⟩ := hcl
    obtain ⟨g', hm, hw'⟩ := hw.step rfl hr hst
    obtain ⟨h1, h2, h3, h4, h5⟩ := client_step (.io p') h hv hm
    obtain ⟨x, y⟩ := g'
    cases h2
    exact ⟨h1, ⟨_, hw', h5⟩, h3, h4⟩
  | @msg p p' c hp hr hst =>
    have hcl := h.client
    unfold Client' at hcl
    rw [hp] at hcl
    obtain ⟨pend, hw, hv⟩ := hcl
    obtain ⟨g', hm, hw'⟩ := hw.step rfl hr hst
    obtain ⟨h1, h2, h3, h4, h5⟩ := client_step (.msg p') h hv hm
    obtain ⟨x, y⟩ := g'
    cases h2
    exact ⟨h1, ⟨_, hw', h5⟩, h3, h4⟩
  | @poll a b c hp hrs hok =>
    have hcl := h.client
    unfold Client' at hcl
    rw [hp] at hcl
    exact ⟨h.control.congr rfl rfl rfl rfl rfl rfl rfl rfl, ⟨none, cwp_afterPoll a b c _, hcl⟩, h.parent, h.attr⟩
  | polled hp =>
    have hcl := h.client
    unfold Client' at hcl
    rw [hp] at hcl
    obtain ⟨pend, hw, hv⟩ := hcl
    have : pend = none := hw rfl
    subst this
    exact ⟨h.control.congr rfl rfl rfl rfl rfl rfl rfl rfl, hv, h.parent, h.attr⟩
  | @next raw q hp hq =>
    have hcl := h.client
    unfold Client' at hcl
    rw [hp] at hcl
    exact ⟨h.control.congr rfl rfl rfl rfl rfl rfl rfl rfl, ⟨none, (tame_process raw).toDone, hcl⟩, h.parent, h.attr⟩
  | handled hp =>
    have hcl := h.client
    unfold Client' at hcl
    rw [hp] at hcl
    obtain ⟨pend, hw, hv⟩ := hcl
    have : pend = none := hw rfl
    subst this
    exact ⟨h.control.congr rfl rfl rfl rfl rfl rfl rfl rfl, hv, h.parent, h.attr⟩
  | emptied hp hq =>
    have hcl := h.client
    unfold Client' at hcl
    rw [hp] at hcl
    exact ⟨h.control.congr rfl rfl rfl rfl rfl rfl rfl rfl, hcl, h.parent, h.attr⟩
  | fail hp hr =>
    have hcl := h.client
    unfold Client' at hcl
    have : ∃ pend, Verb s.log pend := by
      rcases hp with hp | hp <;> rw [hp] at hcl <;> obtain ⟨pend, _, hv⟩ := hcl <;> exact ⟨pend, hv⟩
    exact ⟨h.control.congr rfl rfl rfl rfl rfl rfl rfl rfl, this, h.parent, h.attr⟩
  | leave hp hrs =>
    have hcl := h.client
    unfold Client' at hcl
    rw [hp] at hcl
    exact ⟨h.control.congr rfl rfl rfl rfl rfl rfl rfl rfl, hcl, h.parent, h.attr⟩
  | arrive bytes hp =>
    refine ⟨h.control.silent rfl rfl ?_ rfl rfl rfl rfl rfl, client_log h.client rfl rfl rfl rfl, ?_, attr_snoc h.attr fun m w h => by cases h⟩
    · show exchanged (s.log ++ [.sent bytes]) = _
      rw [exchanged_append]; simp [exchanged]
    · exact h.parent.trans (lastHdr_skip fun e he x => by rw [List.mem_singleton.1 he]; simp).symm
  | user u threads files v =>
    exact ⟨h.control.congr rfl rfl rfl rfl rfl rfl rfl rfl, client_congr h.client rfl rfl rfl, h.parent, h.attr⟩

theorem inv_reach (hd : Dbg.Spec.Local d) {u : τ} {files : Str → Option Str} {v : σ} {s : Link τ σ}
    (h : Reach d cl u files v s) : Inv d cl s := by
  induction h with
  | init =>
    refine ⟨.free [] rfl .nil rfl (.idle rfl rfl rfl rfl rfl), ⟨?_, ?_⟩, rfl, ?_⟩
    · intro pre m e post hx
      simp [Link.initial, clientLog] at hx
    · intro pre m hx
      simp [Link.initial, clientLog] at hx
    · intro pre m w post hx
      simp [Link.initial] at hx
  | step _ hs ih => exact inv_step hd ih hs

end Xeus.Link
