import Verif.Link.SafeInv

/-!
# The two threads come to rest

No property statements here.
-/

namespace Xeus.Link

open Xeus Xeus.Spec K Link.Spec

variable {τ σ : Type} {d : Dbg.Debugger τ} {cl : Client σ}

theorem acc_sub {S α : Type} (p : K S α) : Acc Sub p := by
  induction p with
  | done r => exact ⟨_, fun y h => by cases h⟩
  | act f k ih =>
    refine ⟨_, fun y h => ?_⟩
    cases h with
    | mk _ _ b => exact ih b
    | ub _ _ r => exact ⟨_, fun y h => by cases h⟩

theorem sub_ne {S α : Type} {p p' : K S α} (h : Sub p' p) : p' ≠ p := by
  intro he
  subst he
  have : ∀ p : K S α, Acc Sub p → ¬ Sub p p := by
    intro p hp
    induction hp with
    | intro x _ ih => intro hx; exact ih x hx hx
  exact this _ (acc_sub _) h

theorem acc_ctl {S α : Type} (c : Option (K S α)) : Acc CtlLess c := by
  have none_acc : Acc CtlLess (none : Option (K S α)) := ⟨_, fun y h => by cases h⟩
  cases c with
  | none => exact none_acc
  | some p =>
    induction acc_sub p with
    | intro p _ ih =>
      refine ⟨_, fun y h => ?_⟩
      cases h with
      | step h => exact ih _ h
      | ret => exact none_acc

theorem ctl_step {s s' : Link τ σ} (hs : Step d cl s s') : s'.ctl = s.ctl ∨ s.ctl = none ∨ CtlLess s'.ctl s.ctl := by
  cases hs with
  | call header m hf => exact .inr (.inl hf)
  | ret hp => rw [hp]; exact .inr (.inr .ret)
  | dbg hp _ hst => rw [hp]; exact .inr (.inr (.step (sub_step hst)))
  | start q hp _ hst => rw [hp]; exact .inr (.inr (.step (sub_step hst)))
  | _ => exact .inl rfl

/-! ## What the threads do by themselves is not a matter of the adapter and the frontend -/

def Inside (e : LinkEv) : Prop := match e with | .sent _ | .call _ _ => False | _ => True

theorem polite_inside {J : Codec} {log es : List LinkEv} (h : PoliteAdapter J log) (he : ∀ e ∈ es, Inside e) : PoliteAdapter J (log ++ es) := by
  have one : ∀ (l : List LinkEv) (e : LinkEv), SoFarPolite J (sinceStart l) → Inside e → SoFarPolite J (sinceStart (l ++ [e])) := by
    intro l e hl hi
    by_cases hst : e = .dbg (.start true)
    · subst hst
      rw [sinceStart_start]
      exact ⟨[], fun m hm => (by cases hm), List.nil_prefix, Nat.le_refl _⟩
    · rw [sinceStart_append (by simpa using fun h => hst h.symm)]
      obtain ⟨ms, h1, h2, h3⟩ := hl
      refine ⟨ms, h1, ?_, ?_⟩
      · have : received [e] = [] := by cases e <;> first | exact hi.elim | rfl
        rw [received_append, this, List.append_nil]; exact h2
      · rw [passed_append, List.length_append]; omega
  have many : ∀ (es l : List LinkEv), SoFarPolite J (sinceStart l) → (∀ e ∈ es, Inside e) → SoFarPolite J (sinceStart (l ++ es)) := by
    intro es
    induction es with
    | nil => intro l hl _; simpa using hl
    | cons e es ih =>
      intro l hl hes
      have := ih (l ++ [e]) (one l e hl (hes e List.mem_cons_self)) fun x hx => hes x (List.mem_cons_of_mem _ hx)
      simpa using this
  intro pre hpre
  rcases List.prefix_or_prefix_of_prefix hpre (List.prefix_append log es) with h1 | ⟨es', rfl⟩
  · exact h pre h1
  · exact many es' log (h log (List.prefix_refl _)) fun e he' => he e (((List.prefix_append_right_inj _).1 hpre).subset he')

theorem canon_inside {log es : List LinkEv} (h : CanonHeaders log) (he : ∀ e ∈ es, Inside e) : CanonHeaders (log ++ es) := by
  intro header m hm
  rcases List.mem_append.1 hm with hm | hm
  · exact h header m hm
  · exact (he _ hm).elim

theorem internal_log {s s' : Link τ σ} (h : Internal d cl s s') : ∃ es, s'.log = s.log ++ es ∧ ∀ e ∈ es, Inside e := by
  obtain ⟨hs, hm⟩ := h
  have ent : ∀ (a b : Dbg.State τ), ∀ e ∈ dbgEntries a b, Inside e := by
    intro a b e he
    simp only [dbgEntries, List.mem_append, List.mem_map] at he
    rcases he with (⟨_, _, rfl⟩ | ⟨_, _, rfl⟩) | ⟨_, _, rfl⟩ <;> trivial
  have ent' : ∀ (a b : Dap σ), ∀ e ∈ dapEntries a b, Inside e := by
    intro a b e he
    simp only [dapEntries, List.mem_append, List.mem_map] at he
    rcases he with ⟨_, _, rfl⟩ | ⟨_, _, rfl⟩ <;> trivial
  cases hs with
  | call header m hf => exact hm.elim (fun hm => absurd rfl hm) fun hm => absurd hf hm.1
  | ret _ _ _ => exact ⟨_, rfl, fun e he => by rw [List.mem_singleton.1 he]; trivial⟩
  | dbg _ _ _ _ => exact ⟨_, rfl, ent _ _⟩
  | start _ _ _ _ _ _ => exact ⟨_, rfl, ent _ _⟩
  | io _ _ _ => exact ⟨_, rfl, ent' _ _⟩
  | msg _ _ _ => exact ⟨_, rfl, ent' _ _⟩
  | arrive _ _ => rcases hm with hm | ⟨_, hm⟩ <;> exact absurd rfl hm
  | user _ _ _ _ => rcases hm with hm | ⟨_, hm⟩ <;> exact absurd rfl hm
  | _ => exact ⟨[], by simp, fun e he => by cases he⟩

/-! ## Rest -/

structure Peaceful (d : Dbg.Debugger τ) (cl : Client σ) (s : Link τ σ) : Prop where
  inv : Inv d cl s
  canon : CanonHeaders s.log
  polite : PoliteAdapter d.J s.log

theorem calm_step (hd : Dbg.Spec.Local d) {s s' : Link τ σ} (h : Peaceful d cl s) (hs : Internal d cl s s') : Peaceful d cl s' := by
  obtain ⟨es, h1, h2⟩ := internal_log hs
  refine ⟨inv_step hd h.inv hs.1, ?_, ?_⟩
  · rw [h1]; exact canon_inside h.canon h2
  · rw [h1]; exact polite_inside h.polite h2

abbrev Less : Nat × Nat × Nat × Nat → Nat × Nat × Nat × Nat → Prop :=
  Prod.Lex (· < ·) (Prod.Lex (· < ·) (Prod.Lex (· < ·) (· < ·)))

theorem less_wf : WellFounded Less :=
  (Prod.lex Nat.lt_wfRel (Prod.lex Nat.lt_wfRel (Prod.lex Nat.lt_wfRel Nat.lt_wfRel))).wf

/-- What the client executes. -/
def progOf : Pc σ → K (Dap σ) Unit
  | .io p | .msg p => p
  | _ => .done .hang

theorem progOf_eq (s : Link τ σ) (p : K (Dap σ) Unit) (h : s.pc = .io p ∨ s.pc = .msg p) : p = progOf s.pc := by
  rcases h with h | h <;> rw [h] <;> rfl

theorem calm_rests (hd : Dbg.Spec.Local d) (hJ : cl.env.J = d.J) (hK : LawfulCodec d.J) (hE : d.J.parse [] = none) (hcl : CivilClient cl)
    {s : Link τ σ} (hs : Peaceful d cl s) (hl : Live cl s) : Acc (fun t' t => Internal d cl t t') s := by
  have main : ∀ c, ∀ s : Link τ σ, s.ctl = c → Peaceful d cl s → Live cl s → Acc (fun t' t => Internal d cl t t') s := by
    intro c
    induction acc_ctl c with
    | intro c _ ihc =>
      -- the control thread does not move
      have inner : ∀ r, ∀ (p : K (Dap σ) Unit) (s : Link τ σ) (g : Lv) (q : List Str), rank s g q = r → s.ctl = c → Peaceful d cl s →
          LiveG cl s g q → (∀ p', s.pc = .io p' ∨ s.pc = .msg p' → p' = p) → Acc (fun t' t => Internal d cl t t') s := by
        intro r
        induction less_wf.apply r with
        | intro r _ ihr =>
          intro p
          induction acc_sub p with
          | intro p _ ihp =>
            intro s g q hr hc hcalm hlive hp
            refine ⟨_, fun s' hint => ?_⟩
            have hcalm' := calm_step hd hcalm hint
            rcases live_step hJ hK hE hcl hcalm.inv hcalm'.canon hcalm'.polite hlive hint.1 with ⟨hctl, hgo⟩ | ⟨hl', hmv⟩
            · have go : ∀ {g' q'}, LiveG cl s' g' q' → Less (rank s' g' q') r → Acc (fun t' t => Internal d cl t t') s' := by
                intro g' q' h1 h2
                exact ihr _ h2 (progOf s'.pc) s' g' q' rfl (hctl.trans hc) hcalm' h1 (progOf_eq s')
              cases hgo with
              | @io a b g' h1 h2 h3 h4 h5 =>
                have ha := hp a (.inl h1)
                subst ha
                rcases Nat.lt_or_eq_of_le h5 with hlt | heq
                · refine go h4 ?_
                  rw [← hr]
                  unfold rank
                  rw [h1, h2]
                  exact .left _ _ hlt
                · refine ihp b h3 s' g' q ?_ (hctl.trans hc) hcalm' h4 fun x hx => ?_
                  · rw [← hr]
                    unfold rank
                    rw [h1, h2]
                    simp only [heq]
                  · rw [h2] at hx; rcases hx with hx | hx <;> cases hx; rfl
              | @msg a b g' h1 h2 h3 h4 h5 =>
                have ha := hp a (.inr h1)
                subst ha
                rcases Nat.lt_or_eq_of_le h5 with hlt | heq
                · refine go h4 ?_
                  rw [← hr]
                  unfold rank
                  rw [h1, h2]
                  exact .left _ _ hlt
                · refine ihp b h3 s' g' q ?_ (hctl.trans hc) hcalm' h4 fun x hx => ?_
                  · rw [← hr]
                    unfold rank
                    rw [h1, h2]
                    simp only [heq]
                  · rw [h2] at hx; rcases hx with hx | hx <;> cases hx; rfl
              | on h1 h2 => exact go h1 (hr ▸ h2)
            · have hless : CtlLess s'.ctl s.ctl := by
                rcases hmv with hpc | h
                · rcases hint.2 with h | ⟨h1, h2⟩
                  · exact absurd hpc h
                  · rcases ctl_step hint.1 with h | h | h
                    · exact absurd h h2
                    · exact absurd h h1
                    · exact h
                · exact h
              rw [hc] at hless
              exact ihc _ hless s' rfl hcalm' hl'
      intro s hc hcalm ⟨g, q, hlive⟩
      exact inner _ (progOf s.pc) s g q rfl hc hcalm hlive (progOf_eq s)
  exact main _ s rfl hs hl

end Xeus.Link
