import Verif.Link.Steps

/-!
# The debugger and the client together: reading the record

No property statements here.
-/

namespace Xeus.Link

open Xeus Xeus.Spec K Link.Spec

variable {τ σ : Type} {d : Dbg.Debugger τ} {cl : Client σ}

/-! ## Lists -/

/-- A list split at an element lies on one side of a given cut. -/
theorem split_at {α : Type} {X T A R : List α} {e : α} (h : X ++ T = A ++ e :: R) :
    (∃ X', X = A ++ e :: X' ∧ R = X' ++ T) ∨ (∃ A', A = X ++ A' ∧ T = A' ++ e :: R) := by
  rcases List.append_eq_append_iff.1 h with ⟨A', h1, h2⟩ | ⟨T', h1, h2⟩
  · exact .inr ⟨A', h1, h2⟩
  · cases T' with
    | nil => exact .inr ⟨[], by simpa using h1.symm, by simpa using h2.symm⟩
    | cons x T' =>
      simp only [List.cons_append, List.cons.injEq] at h2
      obtain ⟨rfl, rfl⟩ := h2
      exact .inl ⟨T', h1, rfl⟩

theorem happens_split {tr : List Round} {X Y : List LinkEv} {e : LinkEv} (h : happens tr = X ++ e :: Y) :
    ∃ t₁ R t₂ y₁ y₂, tr = t₁ ++ R :: t₂ ∧ R.events = y₁ ++ e :: y₂ ∧ X = happens t₁ ++ y₁ ∧ Y = y₂ ++ happens t₂ := by
  induction tr generalizing X with
  | nil => simp [happens] at h
  | cons R tr ih =>
    have h' : R.events ++ happens tr = X ++ e :: Y := by simpa [happens] using h
    rcases split_at h' with ⟨X', h1, h2⟩ | ⟨A', h1, h2⟩
    · exact ⟨[], R, tr, X, X', rfl, h1, by simp [happens], h2⟩
    · obtain ⟨t₁, R', t₂, y₁, y₂, k1, k2, k3, k4⟩ := ih h2
      exact ⟨R :: t₁, R', t₂, y₁, y₂, by rw [k1]; rfl, k2, by rw [h1, k3]; simp [happens], k4⟩

/-- Neither calls nor returns. -/
def Inner (l : List LinkEv) : Prop := ∀ e ∈ l, (∀ hd m, e ≠ .call hd m) ∧ ∀ r, e ≠ .ret r

theorem inner_happens {tr : List Round} (h : ∀ x ∈ tr, (∀ hd m, x ≠ .call hd m) ∧ ∀ r, x ≠ .ret r) : Inner (happens tr) := by
  intro e he
  simp only [happens, List.mem_flatMap] at he
  obtain ⟨x, hx, he⟩ := he
  have := h x hx
  cases x with
  | call a b => exact absurd rfl (this.1 a b)
  | ret a => exact absurd rfl (this.2 a)
  | _ => simp [Round.events] at he <;> (try rcases he with he | he | he | he) <;> (try rcases he with he | he | he) <;> (try subst he) <;> simp_all

theorem inner_part {t : Dbg.State τ} {c : Dap σ} {ph : Ph} {part : List LinkEv} (h : Net t c ph part) : Inner part := by
  intro e he
  cases h <;> simp at he <;> (try rcases he with he | he | he) <;> (try rcases he with he | he) <;> (try subst he) <;> simp_all

theorem Inner.append {a b : List LinkEv} (ha : Inner a) (hb : Inner b) : Inner (a ++ b) := by
  intro e he
  rcases List.mem_append.1 he with he | he
  · exact ha e he
  · exact hb e he

/-- The last call of a record. -/
theorem last_call {X T A B : List LinkEv} {header header' m m' : Json} (hT : Inner T)
    (h : X ++ .call header' m' :: T = A ++ .call header m :: B) :
    (∃ X', X = A ++ .call header m :: X' ∧ B = X' ++ .call header' m' :: T) ∨ (A = X ∧ header = header' ∧ m = m' ∧ B = T) := by
  rcases split_at h with h | ⟨A', h1, h2⟩
  · exact .inl h
  · cases A' with
    | nil =>
      simp only [List.nil_append, List.cons.injEq, LinkEv.call.injEq] at h2
      exact .inr ⟨by simpa using h1, h2.1.1.symm, h2.1.2.symm, h2.2.symm⟩
    | cons x A' =>
      simp only [List.cons_append, List.cons.injEq] at h2
      exact absurd rfl ((hT (.call header m) (by rw [h2.2]; simp)).1 _ _)

theorem exchanged_call (header m : Json) (l : List LinkEv) : exchanged (.call header m :: l) = .call header m :: exchanged l := rfl
theorem exchanged_ret (r : Res Json) (l : List LinkEv) : exchanged (.ret r :: l) = .ret r :: exchanged l := rfl

theorem noCall_exchanged {l : List LinkEv} (h : NoCall l) : NoCall (exchanged l) := fun a b hx => h a b (List.mem_filter.1 hx).1

theorem happens_call (header m : Json) (tr : List Round) (r : Res Json) :
    happens (.call header m :: (tr ++ [.ret r])) = .call header m :: (happens tr ++ [.ret r]) := by
  simp [happens, Round.events]

/-- A complete call among complete calls. -/
theorem find_call {rounds : List Round} {b : Bool} {A B C : List LinkEv} {header m : Json} {r : Res Json} (hc : Calls d rounds b)
    (h : happens rounds = A ++ .call header m :: (B ++ .ret r :: C)) (hB : NoCall B) :
    ∃ rounds₁ b₁ g, Calls d rounds₁ b₁ ∧ A = happens rounds₁ ∧ B = happens g.tr ∧ Good d header m b₁ g r := by
  induction hc generalizing C with
  | nil => simp [happens] at h
  | @call rounds b header' m' g r' hc hg ht ih =>
    rw [happens_append, happens_call] at h
    have ih' := fun C => ih (C := C)
    have hi := inner_happens ht.inner
    rcases split_at h with ⟨X', h1, h2⟩ | ⟨A', h1, h2⟩
    · rcases split_at h2.symm with ⟨Y', k1, k2⟩ | ⟨Y', k1, k2⟩
      · exact ih' Y' (by rw [h1, k1])
      · cases Y' with
        | nil => simp at k2
        | cons y Y' =>
          simp only [List.cons_append, List.cons.injEq] at k2
          exact absurd (by rw [k1, ← k2.1]; simp) (hB header' m')
    · cases A' with
      | nil =>
        simp only [List.nil_append, List.cons.injEq, LinkEv.call.injEq] at h2
        obtain ⟨⟨rfl, rfl⟩, h2⟩ := h2
        rcases split_at h2 with ⟨X', k1, k2⟩ | ⟨A'', k1, k2⟩
        · exact absurd rfl ((hi (.ret r) (by rw [k1]; simp)).2 r)
        · cases A'' with
          | nil =>
            simp only [List.nil_append, List.cons.injEq, LinkEv.ret.injEq] at k2
            obtain ⟨rfl, _⟩ := k2
            exact ⟨rounds, b, g, hc, by simpa using h1, by simpa using k1, hg⟩
          | cons y A'' => simp at k2
      | cons x A' =>
        simp only [List.cons_append, List.cons.injEq] at h2
        rcases split_at h2.2 with ⟨X', k1, k2⟩ | ⟨A'', k1, k2⟩
        · exact absurd rfl ((hi (.call header m) (by rw [k1]; simp)).1 _ _)
        · cases A'' with
          | nil => simp at k2
          | cons y A'' => simp at k2

/-- The whole record. -/
theorem Inv.record {s : Link τ σ} (h : Inv d cl s) : ∃ rounds b tail, Calls d rounds b ∧ exchanged s.log = happens rounds ++ tail ∧
    (tail = [] ∨ ∃ header m g part, tail = .call header m :: (happens g.tr ++ part) ∧ Trace (HeaderIs d.J header) g ∧
      Net s.dbg s.dap g.ph part) := by
  cases h.control with
  | free rounds a b c e => exact ⟨rounds, _, [], b, by simpa using c, .inl rfl⟩
  | busy rounds b header m g part p a e f tr k l n =>
    refine ⟨rounds, b, _, e, ?_, .inr ⟨header, m, g, part, rfl, tr, n⟩⟩
    rw [l, happens_append]
    simp [happens, Round.events]

theorem running_happens (rounds : List Round) (b : Bool) (l : List LinkEv) (hl : running l = b) :
    running (l ++ happens rounds) = after b rounds := by
  induction rounds generalizing l b with
  | nil => simpa [happens, after] using hl
  | cons x rounds ih =>
    have : l ++ happens (x :: rounds) = (l ++ x.events) ++ happens rounds := by simp [happens]
    rw [this]
    cases x with
    | start c => exact ih c _ (by simp [running, Round.events, List.filterMap_append])
    | stop => exact ih false _ (by simp [running, Round.events, List.filterMap_append])
    | call _ _ => exact ih b _ (by simpa [running, Round.events, List.filterMap_append] using hl)
    | ret _ => exact ih b _ (by simpa [running, Round.events, List.filterMap_append] using hl)
    | header _ => exact ih b _ (by simpa [running, Round.events, List.filterMap_append] using hl)
    | request _ _ => exact ih b _ (by simpa [running, Round.events, List.filterMap_append] using hl)

theorem calls_after {rounds : List Round} {b : Bool} (h : Calls d rounds b) : b = after false rounds := by
  induction h with
  | nil => rfl
  | call _ hg _ ih =>
    rw [after_append, ← ih, hg.started]
    simp [after, after_append]

theorem running_exchanged (l : List LinkEv) : running (exchanged l) = running l := by
  unfold running exchanged
  rw [List.filterMap_filter]
  congr 3
  funext e
  cases e with
  | cli e => cases e <;> rfl
  | dbg e => cases e <;> rfl
  | _ => rfl

theorem lastHdr_exchanged (l : List LinkEv) : lastHdr (exchanged l) = lastHdr l := by
  unfold lastHdr exchanged
  rw [List.filterMap_filter]
  congr 3
  funext e
  cases e with
  | cli e => cases e <;> rfl
  | _ => rfl

/-! ## Which header an event carries -/

/-- A complete or a pending call: what has happened since its beginning. -/
structure Since (H : Str → Prop) (L : List LinkEv) : Prop where
  headers : ∀ h, LinkEv.cli (.header h) ∈ L → H h
  first : ∀ X e Y, L = X ++ e :: Y → (∃ a, e = .acked a) ∨ (∃ q, e = .dbg (.request q)) → ∃ h, LinkEv.cli (.header h) ∈ X

theorem headed_happens {tr : List Round} (h : Headed tr) : ∃ x, LinkEv.cli (.header x) ∈ happens tr := by
  obtain ⟨x, hx⟩ := h
  exact ⟨x, List.mem_flatMap.2 ⟨_, hx, by simp [Round.events]⟩⟩

theorem mem_happens {tr : List Round} {h : Str} (hm : LinkEv.cli (.header h) ∈ happens tr) : Round.header h ∈ tr := by
  obtain ⟨x, hx, he⟩ := List.mem_flatMap.1 hm
  cases x <;> simp [Round.events] at he
  rw [he]; exact hx

theorem since_happens {H : Str → Prop} {g : Req} (ht : Trace H g) : Since H (happens g.tr) := by
  refine ⟨fun h hm => ht.headers h (mem_happens hm), fun X e Y hx he => ?_⟩
  obtain ⟨t₁, R, t₂, y₁, y₂, h1, h2, h3, h4⟩ := happens_split hx
  rcases he with ⟨a, rfl⟩ | ⟨q, rfl⟩
  · cases R with
    | header h =>
      refine ⟨h, ?_⟩
      rw [h3]
      refine List.mem_append_right _ ?_
      simp only [Round.events] at h2
      match y₁, h2 with
      | [], h2 => simp at h2
      | [_], h2 => simp at h2
      | [_, _], h2 => simp at h2; rw [← h2.2.1]; simp
      | _ :: _ :: _ :: _, h2 => simp at h2
    | _ => have := congrArg (LinkEv.acked a ∈ ·) h2; simp [Round.events] at this
  · cases R with
    | request m r =>
      obtain ⟨x, hx⟩ := headed_happens (ht.requests t₁ m r t₂ h1)
      exact ⟨x, by rw [h3]; exact List.mem_append_left _ hx⟩
    | _ => have := congrArg (LinkEv.dbg (.request q) ∈ ·) h2; simp [Round.events] at this

theorem since_ret {H : Str → Prop} {L : List LinkEv} (h : Since H L) (r : Res Json) : Since H (L ++ [.ret r]) := by
  refine ⟨fun x hx => h.headers x (by simpa using hx), fun X e Y hx he => ?_⟩
  rcases split_at hx with ⟨X', k1, k2⟩ | ⟨A', k1, k2⟩
  · exact h.first X e X' k1 he
  · cases A' with
    | nil =>
      simp only [List.nil_append, List.cons.injEq] at k2
      rcases he with ⟨a, rfl⟩ | ⟨q, rfl⟩ <;> cases k2.1
    | cons y A' => simp at k2

theorem since_part {H : Str → Prop} {g : Req} {t : Dbg.State τ} {c : Dap σ} {part : List LinkEv} (ht : Trace H g)
    (hn : Net t c g.ph part) : Since H (happens g.tr ++ part) := by
  have h := since_happens ht
  have hp : ∀ x, LinkEv.cli (.header x) ∈ part → H x := by
    intro x hx
    have hpend := ht.pending x
    generalize g.ph = ph at hn hpend
    cases hn <;> simp at hx
    subst hx; exact hpend rfl
  refine ⟨fun x hx => ?_, fun X e Y hx he => ?_⟩
  · rcases List.mem_append.1 hx with hx | hx
    · exact h.headers x hx
    · exact hp x hx
  · rcases split_at hx with ⟨X', k1, k2⟩ | ⟨A', k1, k2⟩
    · exact h.first X e X' k1 he
    · have hmem : e ∈ part := by rw [k2]; simp
      have hreq : ∃ m, g.ph = .reply m := by
        generalize g.ph = ph at hn
        cases hn with
        | idle => simp at hmem
        | hdrSent => simp at hmem; rcases he with ⟨a, rfl⟩ | ⟨q, rfl⟩ <;> simp_all
        | hdrTaken => simp at hmem; rcases he with ⟨a, rfl⟩ | ⟨q, rfl⟩ <;> simp_all
        | reqSent => exact ⟨_, rfl⟩
        | reqTaken => exact ⟨_, rfl⟩
        | reqAnswered => exact ⟨_, rfl⟩
      obtain ⟨m, hm⟩ := hreq
      obtain ⟨x, hx⟩ := headed_happens (ht.waiting m hm)
      exact ⟨x, by rw [k1]; exact List.mem_append_left _ hx⟩

theorem lastHdr_since {P X : List LinkEv} {H : Str → Prop} (hH : ∀ h, LinkEv.cli (.header h) ∈ X → H h)
    (hx : ∃ h, LinkEv.cli (.header h) ∈ X) : H (lastHdr (P ++ X)) := by
  unfold lastHdr
  rw [List.filterMap_append]
  generalize hq : (X.filterMap fun | .cli (.header h) => some h | _ => none) = q
  have hmem : ∀ h, h ∈ q → H h := by
    intro h hh
    rw [← hq, List.mem_filterMap] at hh
    obtain ⟨e, he, hx⟩ := hh
    split at hx
    · cases hx; exact hH _ he
    · cases hx
  have hne : q ≠ [] := by
    obtain ⟨h, hh⟩ := hx
    intro hq0
    rw [hq0, List.filterMap_eq_nil_iff] at hq
    exact absurd (hq _ hh) (by simp)
  rw [List.getLast?_append]
  cases hl : q.getLast? with
  | none => exact absurd (List.getLast?_eq_none_iff.1 hl) hne
  | some h => exact hmem h (List.mem_of_getLast? hl)

/-- What happened since a call, up to the next one. -/
theorem since_call {rounds : List Round} {b : Bool} {A B C : List LinkEv} {header m : Json} (hc : Calls d rounds b)
    (h : happens rounds = A ++ .call header m :: (B ++ C)) (hB : NoCall B) :
    ∃ L C', Since (HeaderIs d.J header) L ∧ L = B ++ C' := by
  induction hc generalizing C with
  | nil => simp [happens] at h
  | @call rounds b header' m' g r' hc hg ht ih =>
    rw [happens_append, happens_call] at h
    have hin : Inner (happens g.tr) := inner_happens ht.inner
    rcases split_at h with ⟨X', h1, h2⟩ | ⟨A', h1, h2⟩
    · rcases List.append_eq_append_iff.1 h2 with ⟨Y, k1, k2⟩ | ⟨Y, k1, k2⟩
      · exact ih (C := Y) (by rw [h1, k1])
      · cases Y with
        | nil =>
          exact ih (C := []) (by rw [h1]; simpa using k1.symm)
        | cons y Y =>
          simp only [List.cons_append, List.cons.injEq] at k2
          exact absurd (by rw [k1, ← k2.1]; simp) (hB header' m')
    · cases A' with
      | nil =>
        simp only [List.nil_append, List.cons.injEq, LinkEv.call.injEq] at h2
        obtain ⟨⟨rfl, rfl⟩, h2⟩ := h2
        exact ⟨_, C, since_ret (since_happens ht) r', h2⟩
      | cons x A' =>
        simp only [List.cons_append, List.cons.injEq] at h2
        rcases split_at h2.2 with ⟨X', k1, k2⟩ | ⟨A'', k1, k2⟩
        · exact absurd rfl ((hin (.call header m) (by rw [k1]; simp)).1 _ _)
        · cases A'' with
          | nil => simp at k2
          | cons y A'' => simp at k2

end Xeus.Link
