import Verif.Link.Ending
import Verif.Link.Prompt
import Verif.Link.Rest

/-!
# Nothing is sent before the client has been launched: lemmas

No property statements here.
-/

namespace Xeus.Link

open Xeus Xeus.Spec K Link.Spec

variable {τ σ : Type} {d : Dbg.Debugger τ} {cl : Client σ} {s : Link τ σ}

/-- The debugger is started, and a header has been sent, only if the client has been launched. -/
def Launched (s : Link τ σ) : Prop :=
  (s.dbg.started = true ∨ ∃ x, LinkEv.dbg (.header x) ∈ s.log) → LinkEv.dbg (.start true) ∈ s.log

/-- An access that makes the debugger started, or sends a header. -/
theorem rmv_launch {H : Str → Prop} {g g' : Req} {t t' : Dbg.State τ} (hm : RMv H g t t' g') (hs : t.started = g.started) :
    (t'.started = true → t.started = true ∨ Dbg.Event.start true ∈ t'.out.drop t.out.length) ∧
    (∀ x, Dbg.Event.header x ∈ t'.out.drop t.out.length → t.started = true) := by
  rw [hs]
  cases hm with
  | quiet _ hb _ _ h3 h4 =>
    refine ⟨fun h => .inl (h4 (hb ▸ h)), fun x hx => ?_⟩
    rw [h3, List.drop_length] at hx; cases hx
  | start _ hb _ _ h3 =>
    rw [h3, List.drop_left' rfl]
    refine ⟨fun h => .inr ?_, fun x hx => by simp at hx⟩
    rw [hb] at h; rw [h]; exact List.mem_singleton_self _
  | stop _ hb _ _ h3 h4 =>
    rw [h3, List.drop_left' rfl]
    exact ⟨fun h => .inl (h4 (hb ▸ h)), fun x hx => by simp at hx⟩
  | header _ _ hb _ _ h3 h4 => exact ⟨fun _ => .inl h4, fun _ _ => h4⟩
  | request _ _ hb _ _ h3 h4 =>
    rw [h3, List.drop_left' rfl]
    exact ⟨fun h => .inl (h4 (hb ▸ h)), fun x hx => by simp at hx⟩
  | acked _ hb _ _ h3 h4 =>
    refine ⟨fun h => .inl (h4 (hb ▸ h)), fun x hx => ?_⟩
    rw [h3, List.drop_length] at hx; cases hx
  | answered _ hb _ _ h3 h4 =>
    refine ⟨fun h => .inl (h4 (hb ▸ h)), fun x hx => ?_⟩
    rw [h3, List.drop_length] at hx; cases hx

theorem header_entries {a b : Dbg.State τ} {x : Str} (h : LinkEv.dbg (.header x) ∈ dbgEntries a b) :
    Dbg.Event.header x ∈ b.out.drop a.out.length := by
  simp only [dbgEntries, List.mem_append, List.mem_map] at h
  rcases h with (⟨_, _, h⟩ | ⟨_, _, h⟩) | ⟨e, he, h⟩
  · cases h
  · cases h
  · cases h; exact he

theorem launched_step {s s' : Link τ σ} (hi : Inv d cl s) (h : Launched s) (hs : Step d cl s s') : Launched s' := by
  have same : ∀ {s' : Link τ σ} (es : List LinkEv), s'.dbg.started = s.dbg.started → s'.log = s.log ++ es →
      (∀ e ∈ es, ∀ x, e ≠ .dbg (.header x)) → Launched s' := by
    intro s' es h1 h2 h3 hx
    rw [h1, h2] at hx
    rw [h2]
    refine List.mem_append_left _ (h ?_)
    rcases hx with hx | ⟨x, hx⟩
    · exact .inl hx
    · rcases List.mem_append.1 hx with hx | hx
      · exact .inr ⟨x, hx⟩
      · exact absurd rfl (h3 _ hx x)
  have work : ∀ {s' : Link τ σ} {p p' : K (Dbg.State τ) Json} {t : Dbg.State τ}, s.ctl = some p → Ready p s.dbg →
      p.step s.dbg = some (p', t) → s'.dbg = t → s'.log = s.log ++ dbgEntries s.dbg t → Launched s' := by
    intro s' p p' t hp hr hst hd' hl hx
    cases hi.control with
    | free _ a => rw [hp] at a; cases a
    | busy rounds b header m g part p a e f tr k l n =>
      rw [hp] at a
      cases a
      obtain ⟨g', hm, _⟩ := f.step ⟨k, n.arrived⟩ hr hst
      obtain ⟨h1, h2⟩ := rmv_launch hm k
      rw [hl]
      rw [hl, hd'] at hx
      have old : s.dbg.started = true → LinkEv.dbg (.start true) ∈ s.log ++ dbgEntries s.dbg t :=
        fun hx => List.mem_append_left _ (h (.inl hx))
      rcases hx with hx | ⟨x, hx⟩
      · rcases h1 hx with hx | hx
        · exact old hx
        · exact List.mem_append_right _ ((start_entries _ _).2 hx)
      · rcases List.mem_append.1 hx with hx | hx
        · exact List.mem_append_left _ (h (.inr ⟨x, hx⟩))
        · exact old (h2 x (header_entries hx))
  have client : ∀ c : Dap σ, ∀ e ∈ dapEntries s.dap c, ∀ x, e ≠ .dbg (.header x) := by
    intro c e he x
    simp only [dapEntries, List.mem_append, List.mem_map] at he
    rcases he with ⟨_, _, rfl⟩ | ⟨_, _, rfl⟩ <;> simp
  cases hs with
  | call header m _ => exact same _ rfl rfl (fun e he x => by rw [List.mem_singleton.1 he]; simp)
  | ret _ _ _ => exact same _ rfl rfl (fun e he x => by rw [List.mem_singleton.1 he]; simp)
  | dbg hp hr hst _ => exact work hp hr hst rfl rfl
  | start _ hp hr hst _ _ _ => exact work hp hr hst rfl rfl
  | io _ _ _ => exact same _ rfl rfl (client _)
  | msg _ _ _ => exact same _ rfl rfl (client _)
  | arrive b _ => exact same _ rfl rfl (fun e he x => by rw [List.mem_singleton.1 he]; simp)
  | _ => exact same [] rfl (by simp) (fun e he => by cases he)

theorem launched_reach (hd : Dbg.Spec.Local d) {u : τ} {files : Str → Option Str} {v : σ} {s : Link τ σ}
    (h : Reach d cl u files v s) : Launched s := by
  induction h with
  | init => rintro (h | ⟨x, h⟩) <;> cases h
  | step hr hs ih => exact launched_step (inv_reach hd hr) ih hs

/-! ## What is waited for -/

theorem waitOf_exchanged (log : List LinkEv) : waitOf (exchanged log) = waitOf log := by
  unfold waitOf exchanged
  congr 2
  induction log with
  | nil => rfl
  | cons e log ih =>
    rw [List.filter_cons, List.filterMap_cons]
    cases e with
    | cli e => cases e <;> simpa [List.filterMap_cons] using ih
    | dbg e => cases e <;> simp [List.filterMap_cons, ih]
    | _ => simp [List.filterMap_cons, ih]

theorem waitOf_happens (rounds : List Round) : waitOf (happens rounds) = .idle := by
  have : ∀ l : List Round, waitOf (happens l.reverse) = .idle := by
    intro l
    induction l with
    | nil => rfl
    | cons r l ih =>
      rw [List.reverse_cons, happens_append, happens_one]
      cases r with
      | header h =>
        have e : happens l.reverse ++ Round.events (.header h) =
          (happens l.reverse ++ [.dbg (.header h), .cli (.header h)]) ++ [.acked (lit "ACK")] := by simp [Round.events]
        rw [e, waitOf_last]
      | request m r =>
        have e : happens l.reverse ++ Round.events (.request m r) =
          (happens l.reverse ++ [.dbg (.request m), .took m, .cli (.reply r)]) ++ [.answered r] := by simp [Round.events]
        rw [e, waitOf_last]
      | start b => exact (waitOf_last (e := .dbg (.start b))).trans ih
      | stop => exact (waitOf_last (e := .dbg .stop)).trans ih
      | call hd m => exact (waitOf_last (e := .call hd m)).trans ih
      | ret r => exact (waitOf_last (e := .ret r)).trans ih
  simpa using this rounds.reverse

/-- The wait of a phase. -/
def waitOfPh : Ph → Wait
  | .idle => .idle
  | .ack _ => .ack
  | .reply _ => .reply

theorem waitOf_net {log : List LinkEv} {rounds : List Round} {part : List LinkEv} {ph : Ph} {t : Dbg.State τ} {c : Dap σ}
    (h : exchanged log = happens rounds ++ part) (hn : Net t c ph part) : waitOf log = waitOfPh ph := by
  rw [← waitOf_exchanged, h]
  cases hn with
  | idle => rw [List.append_nil]; exact waitOf_happens rounds
  | @hdrSent x => exact waitOf_last (e := .dbg (.header x))
  | @hdrTaken x =>
    have : happens rounds ++ [LinkEv.dbg (.header x), .cli (.header x)] = (happens rounds ++ [.dbg (.header x)]) ++ [.cli (.header x)] := by simp
    rw [this, waitOf_last]
    exact waitOf_last (e := .dbg (.header x))
  | @reqSent m => exact waitOf_last (e := .dbg (.request m))
  | @reqTaken m =>
    have : happens rounds ++ [LinkEv.dbg (.request m), .took m] = (happens rounds ++ [.dbg (.request m)]) ++ [.took m] := by simp
    rw [this, waitOf_last]
    exact waitOf_last (e := .dbg (.request m))
  | @reqAnswered m r =>
    have : happens rounds ++ [LinkEv.dbg (.request m), .took m, .cli (.reply r)] =
      ((happens rounds ++ [.dbg (.request m)]) ++ [.took m]) ++ [.cli (.reply r)] := by simp
    rw [this, waitOf_last, waitOf_last]
    exact waitOf_last (e := .dbg (.request m))

/-- A launch of a client that has ended succeeds. -/
theorem start_possible {c : Dap σ} (hr : c.replyDue = false) (q : Str) :
    ∃ c', (startDebugger cl).run { c with ctlIn := [] ++ [q] } = (.ok (), c') := by
  simp only [startDebugger, run_bind, controllerRecv, run_lift, hr, List.nil_append, Bool.false_eq_true, if_false, andThen_ok,
    controllerSend, if_true, run_modify, Prod.mk.injEq, true_and, exists_eq']

/-- At rest, with nothing to start: the control thread is free, or undefined behaviour has occurred in it, or it waits for the
client. -/
theorem waiting_at_rest (hret : Returns d) (hi : Inv d cl s) (hp : Prompt s) (hrest : ∀ t, ¬ Internal d cl s t) (hsa : ¬ StartsAgain s) :
    (s.ctl = none ∧ Complete s.log) ∨ (∃ w, s.ctl = some (.done (.ub w))) ∨
    ∃ (rounds : List Round) (ph : Ph) (part : List LinkEv), exchanged s.log = happens rounds ++ part ∧ Net s.dbg s.dap ph part ∧ ph ≠ .idle ∧
      s.dbg.acks = [] ∧ s.dbg.replies = [] ∧ (∃ x, LinkEv.dbg (.header x) ∈ s.log) ∧ s.ctl ≠ none := by
  cases hi.control with
  | free rounds a b e f => exact .inl ⟨a, rounds, e⟩
  | busy rounds b header m g part p a e f tr k l n =>
    have hb := hp.2 p a
    rw [waitOf_net l n] at hb
    right
    by_cases hdn : ∃ r, p = .done r
    · obtain ⟨r, rfl⟩ := hdn
      left
      cases r with
      | ub w => exact ⟨w, a⟩
      | ok j => exact absurd ⟨.ret a rfl (by simp), .inr ⟨by rw [a]; simp, by rw [a]; simp⟩⟩ (hrest _)
      | exc x => exact absurd ⟨.ret a rfl (by simp), .inr ⟨by rw [a]; simp, by rw [a]; simp⟩⟩ (hrest _)
      | hang => exact absurd rfl hb.2
    · right
      -- it cannot go on
      have hnr : ¬ Ready p s.dbg := by
        intro hr
        cases p with
        | done r => exact hdn ⟨r, rfl⟩
        | act F k' =>
          rcases hst : (K.act F k').step s.dbg with _ | ⟨p', t⟩
          · cases hst
          · have hne : some p' ≠ s.ctl := by rw [a]; intro hx; exact sub_ne (sub_step hst) (by injection hx)
            by_cases hss : Starts s.dbg t
            · by_cases hoff : s.pc = .off
              · obtain ⟨g', hm, _⟩ := f.step ⟨k, n.arrived⟩ hr hst
                have hn : s.dap.ctlIn = [] ∧ s.dap.replyDue = false := by
                  unfold Starts at hss
                  have hph : g.ph = .idle := by
                    cases hm with
                    | quiet q => exact q
                    | start q => exact q
                    | stop q => exact q
                    | header _ q => exact q
                    | request _ q => exact q
                    | acked _ _ _ _ q => rw [q, List.drop_length] at hss; cases hss
                    | answered _ _ _ _ q => rw [q, List.drop_length] at hss; cases hss
                  rw [hph] at n
                  cases n with
                  | idle _ h1 h2 => exact ⟨h1, h2⟩
                obtain ⟨c', hc'⟩ := start_possible (cl := cl) hn.2 []
                refine hrest _ ⟨.start (c := c') [] a hr hst hss hoff ?_, .inr ⟨by rw [a]; simp, hne⟩⟩
                rw [hn.1]
                exact hc'
              · exact hsa ⟨hoff, _, _, _, a, hst, hss⟩
            · exact hrest _ ⟨.dbg a hr hst hss, .inr ⟨by rw [a]; simp, hne⟩⟩
      -- hence nothing has arrived
      have hopen : ¬ Open (waitOfPh g.ph) s.dbg := by
        intro ho
        cases p with
        | done r => exact hdn ⟨r, rfl⟩
        | act F k' => exact hnr (hb.1 s.dbg ho)
      refine ⟨_, g.ph, part, l, n, ?_, ?_, ?_, ?_, by rw [a]; simp⟩
      · intro hx; rw [hx] at hopen; exact hopen trivial
      · generalize g.ph = ph at n hopen
        cases n with
        | idle => exact absurd trivial hopen
        | hdrSent _ _ _ h => exact h
        | hdrTaken _ _ _ h => exact absurd (by show s.dbg.acks ≠ []; rw [h]; simp) hopen
        | reqSent _ _ _ h => exact h
        | reqTaken _ _ _ h => exact h
        | reqAnswered _ _ _ h => exact h
      · generalize g.ph = ph at n hopen
        cases n with
        | idle => exact absurd trivial hopen
        | hdrSent _ _ _ _ h => exact h
        | hdrTaken _ _ _ _ h => exact h
        | reqSent _ _ _ _ h => exact h
        | reqTaken _ _ _ _ h => exact h
        | reqAnswered _ _ _ _ h => exact absurd (by show s.dbg.replies ≠ []; rw [h]; simp) hopen
      · have ofEx : ∀ {e}, e ∈ exchanged s.log → e ∈ s.log := fun he => (List.mem_filter.1 he).1
        have hw := tr.waiting
        have inpart : ∀ {e}, e ∈ part → e ∈ s.log := fun he => ofEx (by rw [l]; exact List.mem_append_right _ he)
        have headed : Headed g.tr → ∃ x, LinkEv.dbg (.header x) ∈ s.log := by
          rintro ⟨x, hx⟩
          refine ⟨x, ofEx ?_⟩
          rw [l]
          refine List.mem_append_left _ (List.mem_flatMap.2 ⟨.header x, ?_, by simp [Round.events]⟩)
          exact List.mem_append_right _ (List.mem_cons_of_mem _ hx)
        generalize g.ph = ph at n hopen hw
        cases n with
        | idle => exact absurd trivial hopen
        | hdrSent => exact ⟨_, inpart (List.mem_cons_self)⟩
        | hdrTaken => exact ⟨_, inpart (List.mem_cons_self)⟩
        | reqSent => exact headed (hw _ rfl)
        | reqTaken => exact headed (hw _ rfl)
        | reqAnswered => exact headed (hw _ rfl)

end Xeus.Link
