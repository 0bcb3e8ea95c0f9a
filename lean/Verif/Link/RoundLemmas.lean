import Verif.Link.Rest

/-!
# What the two threads have exchanged since the client was launched

No property statements here.
-/

namespace Xeus.Link

open Xeus Xeus.Spec K Link.Spec

variable {τ σ : Type} {d : Dbg.Debugger τ} {cl : Client σ}

theorem filterMap_exchanged {f : LinkEv → Option Str} (h : ∀ e, f e ≠ none → e ∈ exchanged [e]) (log : List LinkEv) :
    (exchanged log).filterMap f = log.filterMap f := by
  obtain ⟨P, hP⟩ : ∃ P : LinkEv → Bool, ∀ l, exchanged l = l.filter P := ⟨_, fun _ => rfl⟩
  have h' : ∀ e, f e ≠ none → P e = true := fun e he => by
    have := h e he
    rw [hP] at this
    exact (List.mem_filter.1 this).2
  rw [hP]
  induction log with
  | nil => rfl
  | cons e log ih =>
    rw [List.filter_cons, List.filterMap_cons]
    split
    · rw [List.filterMap_cons, ih]
    · rename_i hx
      cases he : f e with
      | none => exact ih
      | some b => exact absurd (h' e (by rw [he]; simp)) hx

theorem requested_exchanged (log : List LinkEv) : requested (exchanged log) = requested log :=
  filterMap_exchanged (fun e he => by cases e <;> first | exact absurd rfl he | exact List.mem_cons_self) log
theorem forwarded_exchanged (log : List LinkEv) : forwarded (exchanged log) = forwarded log :=
  filterMap_exchanged (fun e he => by cases e <;> first | exact absurd rfl he | exact List.mem_cons_self) log
theorem returned_exchanged (log : List LinkEv) : returned (exchanged log) = returned log :=
  filterMap_exchanged (fun e he => by cases e <;> first | exact absurd rfl he | exact List.mem_cons_self) log
theorem replied_exchanged (log : List LinkEv) : replied (exchanged log) = replied log :=
  filterMap_exchanged (fun e he => by
    cases e with
    | cli e => cases e <;> first | exact absurd rfl he | exact List.mem_cons_self
    | _ => exact absurd rfl he) log

/-- The part since the launch, one entry at a time. -/
theorem sinceStart_snoc (log : List LinkEv) (e : LinkEv) :
    sinceStart (log ++ [e]) = if e = .dbg (.start true) then [] else sinceStart log ++ [e] := by
  by_cases h : e = .dbg (.start true)
  · rw [if_pos h, h]; exact sinceStart_start log
  · rw [if_neg h]; exact sinceStart_append (by simpa using fun hx => h hx.symm)

theorem sinceStart_exchanged (log : List LinkEv) : sinceStart (exchanged log) = exchanged (sinceStart log) := by
  have : ∀ l : List LinkEv, sinceStart (exchanged l.reverse) = exchanged (sinceStart l.reverse) := by
    intro l
    induction l with
    | nil => rfl
    | cons e l ih =>
      rw [List.reverse_cons, exchanged_append, sinceStart_snoc]
      by_cases h : e = .dbg (.start true)
      · rw [if_pos h, h]
        exact sinceStart_start _
      · rw [if_neg h, exchanged_append, sinceStart_append, ih]
        intro hx
        have := List.mem_singleton.1 (List.mem_filter.1 hx).1
        exact h this.symm
  simpa using this log.reverse

theorem sinceStart_happens (rounds : List Round) : ∃ rounds', sinceStart (happens rounds) = happens rounds' := by
  have : ∀ l : List Round, ∃ rounds', sinceStart (happens l.reverse) = happens rounds' := by
    intro l
    induction l with
    | nil => exact ⟨[], rfl⟩
    | cons r l ih =>
      obtain ⟨rounds', h⟩ := ih
      rw [List.reverse_cons, happens_append, happens_one]
      by_cases hr : r = .start true
      · subst hr
        exact ⟨[], sinceStart_start _⟩
      · refine ⟨rounds' ++ [r], ?_⟩
        rw [sinceStart_append, h, happens_append, happens_one]
        cases r <;> simp [Round.events]
        rename_i b
        cases b
        · simp
        · exact absurd rfl hr
  simpa using this rounds.reverse

theorem happens_forwarded (rounds : List Round) : forwarded (happens rounds) = requested (happens rounds) := by
  induction rounds with
  | nil => rfl
  | cons r rounds ih =>
    have e : happens (r :: rounds) = r.events ++ happens rounds := rfl
    have e1 : forwarded (r.events ++ happens rounds) = forwarded r.events ++ forwarded (happens rounds) := List.filterMap_append ..
    rw [e, e1, requested_append, ih]
    cases r <;> rfl

theorem happens_returned (rounds : List Round) : replied (happens rounds) = returned (happens rounds) := by
  induction rounds with
  | nil => rfl
  | cons r rounds ih =>
    have e : happens (r :: rounds) = r.events ++ happens rounds := rfl
    have e1 : returned (r.events ++ happens rounds) = returned r.events ++ returned (happens rounds) := List.filterMap_append ..
    rw [e, e1, replied_append, ih]
    cases r <;> rfl

/-- What is on its way between the two threads. -/
theorem inv_between {s : Link τ σ} (h : Inv d cl s) :
    forwarded (sinceStart s.log) = requested (sinceStart s.log) ++ s.dap.ctlIn ∧
    replied (sinceStart s.log) = returned (sinceStart s.log) ++ s.dbg.replies ∧ (s.dap.ctlIn ≠ [] → s.dap.replyDue = false) := by
  have main : ∀ (rounds : List Round) (part : List LinkEv) (ph : Ph), exchanged s.log = happens rounds ++ part →
      Net s.dbg s.dap ph part →
      forwarded (sinceStart s.log) = requested (sinceStart s.log) ++ s.dap.ctlIn ∧
      replied (sinceStart s.log) = returned (sinceStart s.log) ++ s.dbg.replies ∧ (s.dap.ctlIn ≠ [] → s.dap.replyDue = false) := by
    intro rounds part ph he hn
    rw [← forwarded_exchanged, ← requested_exchanged, ← replied_exchanged, ← returned_exchanged, ← sinceStart_exchanged, he]
    have hns : LinkEv.dbg (.start true) ∉ part := by cases hn <;> simp
    rw [sinceStart_append hns]
    obtain ⟨rounds', hr⟩ := sinceStart_happens rounds
    rw [hr]
    have e1 : ∀ a b, forwarded (a ++ b) = forwarded a ++ forwarded b := fun _ _ => List.filterMap_append ..
    have e2 : ∀ a b, returned (a ++ b) = returned a ++ returned b := fun _ _ => List.filterMap_append ..
    rw [e1, e2, requested_append, replied_append, happens_forwarded, happens_returned, List.append_assoc, List.append_assoc]
    cases hn with
    | idle _ a b _ c => rw [a, c]; exact ⟨rfl, rfl, fun h => absurd rfl h⟩
    | hdrSent _ a b _ c => rw [a, c]; exact ⟨rfl, rfl, fun h => absurd rfl h⟩
    | hdrTaken _ a b _ c => rw [a, c]; exact ⟨rfl, rfl, fun h => absurd rfl h⟩
    | reqSent _ a b _ c => rw [a, c]; exact ⟨rfl, rfl, fun _ => b⟩
    | reqTaken _ a b _ c => rw [a, c]; exact ⟨rfl, rfl, fun h => absurd rfl h⟩
    | reqAnswered _ a b _ c => rw [a, c]; exact ⟨rfl, rfl, fun h => absurd rfl h⟩
  cases h.control with
  | free rounds a b e f => exact main rounds [] .idle (by simpa using e) f
  | busy rounds b header m g part p a e f tr k l n => exact main _ part g.ph l n

/-- At most one request is on its way. -/
theorem ctl_one {s : Link τ σ} (h : Inv d cl s) : s.dap.ctlIn.length ≤ 1 := by
  have main : ∀ (part : List LinkEv) (ph : Ph), Net s.dbg s.dap ph part → s.dap.ctlIn.length ≤ 1 := by
    intro part ph hn
    cases hn with
    | idle _ a => rw [a]; simp
    | hdrSent _ a => rw [a]; simp
    | hdrTaken _ a => rw [a]; simp
    | reqSent _ a => rw [a]; simp
    | reqTaken _ a => rw [a]; simp
    | reqAnswered _ a => rw [a]; simp
  cases h.control with
  | free rounds a b e f => exact main _ _ f
  | busy rounds b header m g part p a e f tr k l n => exact main _ _ n

/-- While something is on its way to the client the control thread waits. -/
theorem held {s : Link τ σ} (h : Inv d cl s) (hw : s.dap.hdrIn ≠ [] ∨ s.dap.ctlIn ≠ []) :
    ∃ p, s.ctl = some p ∧ (∀ r, p ≠ .done r) ∧ ¬ Ready p s.dbg := by
  cases h.control with
  | free rounds a b e f =>
    cases f with
    | idle h1 h2 => exact hw.elim (absurd h1) (absurd h2)
  | busy rounds b header m g part p a e f tr k l n =>
    have hph : s.dbg.acks = [] ∧ s.dbg.replies = [] ∧ g.ph ≠ .idle := by
      generalize g.ph = ph at n
      cases n with
      | idle h1 h2 => exact hw.elim (absurd h1) (absurd h2)
      | hdrSent _ _ _ h1 h2 => exact ⟨h1, h2, by simp⟩
      | hdrTaken h1 h2 => exact hw.elim (absurd h1) (absurd h2)
      | reqSent _ _ _ h1 h2 => exact ⟨h1, h2, by simp⟩
      | reqTaken h1 h2 => exact hw.elim (absurd h1) (absurd h2)
      | reqAnswered h1 h2 => exact hw.elim (absurd h1) (absurd h2)
    obtain ⟨h1, h2, h3⟩ := hph
    have hnd : ∀ r, p ≠ .done r := by
      rintro r rfl
      exact h3 (show Good d header m b g r from f).idle
    refine ⟨p, a, hnd, fun hr => ?_⟩
    cases p with
    | done r => exact hnd r rfl
    | act F K =>
      obtain ⟨g', hm, _⟩ := f.step ⟨k, n.arrived⟩ hr rfl
      cases hm with
      | quiet q1 => exact h3 q1
      | start q1 => exact h3 q1
      | stop q1 => exact h3 q1
      | header _ q1 => exact h3 q1
      | request _ q1 => exact h3 q1
      | acked _ _ q3 => rw [h1] at q3; cases q3
      | answered _ _ _ q4 => rw [h2] at q4; cases q4

end Xeus.Link
