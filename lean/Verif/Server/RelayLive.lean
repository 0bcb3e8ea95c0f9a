import Verif.Server.RelayLemmas
import Verif.Server.Spec

/-!
# The publisher and the heartbeat thread: every message is passed on (no property statements here)
-/

namespace Xeus.Relay

open Spec

variable {ι : Type} [DecidableEq ι] {S W : Type _} {step : W → S → S → Prop}

/-- What others may do to the thread. -/
def Touched (x y : Relay ι) : Prop := y.pc = x.pc ∧ y.passed = x.passed ∧ (∀ i, x.inq i <+: y.inq i) ∧
  ∀ i, x.given i <+: y.given i

omit [DecidableEq ι] in
theorem Touched.refl (x : Relay ι) : Touched x x := ⟨rfl, rfl, fun _ => List.prefix_refl _, fun _ => List.prefix_refl _⟩

theorem touched_put (x : Relay ι) (i : ι) (ms : List Multipart) : Touched x (x.put i ms) := by
  refine ⟨rfl, rfl, fun j => ?_, fun j => ?_⟩
  · show _ <+: upd x.inq i (x.inq i ++ ms) j
    unfold upd
    split
    · rename_i h; subst h; exact List.prefix_append _ _
    · exact List.prefix_refl _
  · show _ <+: upd x.given i (x.given i ++ ms) j
    unfold upd
    split
    · rename_i h; subst h; exact List.prefix_append _ _
    · exact List.prefix_refl _

omit [DecidableEq ι] in
theorem Touched.trans {x y z : Relay ι} (h : Touched x y) (h' : Touched y z) : Touched x z :=
  ⟨h'.1.trans h.1, h'.2.1.trans h.2.1, fun i => (h.2.2.1 i).trans (h'.2.2.1 i), fun i => (h.2.2.2 i).trans (h'.2.2.2 i)⟩

omit [DecidableEq ι] in
theorem Touched.loaded {x y : Relay ι} (h : Touched x y) (hl : Loaded x) : Loaded y := by
  rcases hl with ⟨i, hi⟩ | ⟨i, m, r1, hp⟩
  · refine .inl ⟨i, fun h0 => hi ?_⟩
    have := h.2.2.1 i
    rw [h0] at this
    exact List.prefix_nil.1 this
  · exact .inr ⟨i, m, r1, by rw [h.1]; exact hp⟩

omit [DecidableEq ι] in
theorem Touched.toSend {x y : Relay ι} (h : Touched x y) : y.toSend = x.toSend := by
  unfold Relay.toSend; rw [h.1]

/-- A thread `w` of a system whose steps are those of the relay `f`. -/
structure Inside (step : W → S → S → Prop) (f : S → Relay ι) (w : W) : Prop where
  self : ∀ s s', step w s s' → (f s).Step (f s')
  can : ∀ s a, (f s).Step a → CanStep step w s
  other : ∀ b s s', b ≠ w → step b s s' → Touched (f s) (f s')

variable {f : S → Relay ι} {w : W}

theorem Inside.passed_mono (hi : Inside step f w) (e : Execution step) {n m : Nat} (h : n ≤ m) :
    (f (e.state n)).passed <+: (f (e.state m)).passed := by
  induction h with
  | refl => exact List.prefix_refl _
  | @step m _ ih =>
    have := e.ok m
    cases hw : e.who m with
    | none => rw [hw] at this; simp only at this; rw [this]; exact ih
    | some b =>
      rw [hw] at this
      simp only at this
      by_cases hb : b = w
      · subst hb
        refine ih.trans ?_
        generalize f (e.state (m + 1)) = y, hi.self _ _ this = hy
        cases hy with
        | send i m r1 hp => exact List.prefix_append _ _
        | _ => exact List.prefix_refl _
      · rw [(hi.other b _ _ hb this).2.1]; exact ih

theorem Inside.given_mono (hi : Inside step f w) (e : Execution step) {n m : Nat} (h : n ≤ m) (i : ι) :
    (f (e.state n)).given i <+: (f (e.state m)).given i := by
  induction h with
  | refl => exact List.prefix_refl _
  | @step m _ ih =>
    have := e.ok m
    cases hw : e.who m with
    | none => rw [hw] at this; simp only at this; rw [this]; exact ih
    | some b =>
      rw [hw] at this
      simp only at this
      by_cases hb : b = w
      · subst hb
        rw [step_given (hi.self _ _ this)]; exact ih
      · exact ih.trans ((hi.other b _ _ hb this).2.2.2 i)

/-- When something is waiting, something is eventually passed on, unless the thread has ended. -/
theorem Inside.progress (hi : Inside step f w) (e : Execution step) (hf : Fair e w) (hs : ∀ n, (f (e.state n)).Seen) (n : Nat)
    (hl : (f (e.state n)).Loaded) :
    ∃ m, n ≤ m ∧ ((f (e.state n)).passed.length < (f (e.state m)).passed.length ∨ (f (e.state m)).pc = .over) := by
  have hpres : ∀ m, n ≤ m → (f (e.state m)).passed.length = (f (e.state n)).passed.length → (f (e.state m)).Loaded := by
    intro m hm
    induction hm with
    | refl => exact fun _ => hl
    | @step m hm ih =>
      intro hlen
      have h1 := (hi.passed_mono e hm).length_le
      have h2 := (hi.passed_mono e (Nat.le_succ m)).length_le
      have hlen : (f (e.state (m + 1))).passed.length = (f (e.state n)).passed.length := hlen
      have h2 : (f (e.state m)).passed.length ≤ (f (e.state (m + 1))).passed.length := h2
      have ih := ih (by omega)
      have := e.ok m
      cases hw : e.who m with
      | none => rw [hw] at this; simp only at this; show (f (e.state (m + 1))).Loaded; rw [this]; exact ih
      | some b =>
        rw [hw] at this
        simp only at this
        by_cases hb : b = w
        · subst hb
          rcases ih.step (hi.self _ _ this) with h | h
          · exact h
          · omega
        · exact (hi.other b _ _ hb this).loaded ih
  refine Xeus.progress (lt := fun a b : Nat => a < b) Nat.lt_wfRel.wf e
    (fun s => (f s).Seen ∧ (f (e.state n)).passed.length ≤ (f s).passed.length ∧
      ((f s).passed.length = (f (e.state n)).passed.length → (f s).Loaded))
    (fun s => (f (e.state n)).passed.length < (f s).passed.length ∨ (f s).pc = .over)
    (fun s => (f s).toSend) (fun _ => w) n (fun m hm => ⟨hs m, (hi.passed_mono e hm).length_le, hpres m hm⟩) (fun _ _ _ => hf) ?_ ?_
  · rintro s ⟨hr, _, _⟩ hg
    obtain ⟨a, ha⟩ := Relay.can_step hr (fun h => hg (.inr h))
    exact hi.can s a ha
  · rintro a s s' ⟨hr, h1, h2⟩ ⟨_, h1', _⟩ hg hst
    have hlen : (f s).passed.length = (f (e.state n)).passed.length := by
      have : ¬ (f (e.state n)).passed.length < (f s).passed.length := fun h => hg (.inl h)
      omega
    by_cases hb : a = w
    · subst hb
      rcases Relay.toSend_step (h2 hlen) (hi.self _ _ hst) with h | h
      · exact .inr (.inl h)
      · exact .inl (.inl (by omega))
    · exact .inr (.inr ⟨hb, (hi.other a _ _ hb hst).toSend, rfl⟩)

/-- ... for ever. -/
theorem Inside.unbounded (hi : Inside step f w) (e : Execution step) (hf : Fair e w) (hs : ∀ n, (f (e.state n)).Seen) (n : Nat)
    (hl : ∀ m, n ≤ m → (f (e.state m)).Loaded) (ho : ∀ m, n ≤ m → (f (e.state m)).pc ≠ .over) (L : Nat) :
    ∃ m, n ≤ m ∧ L ≤ (f (e.state m)).passed.length := by
  induction L with
  | zero => exact ⟨n, Nat.le_refl _, Nat.zero_le _⟩
  | succ L ih =>
    obtain ⟨m, hm, h⟩ := ih
    obtain ⟨m', hm', h' | h'⟩ := hi.progress e hf hs m (hl m hm)
    · exact ⟨m', by omega, by omega⟩
    · exact absurd h' (ho m' (by omega))

/-- A message in hand is passed on. -/
theorem Inside.sends (hi : Inside step f w) (e : Execution step) (hf : Fair e w) (hs : ∀ n, (f (e.state n)).Seen) (n : Nat)
    {i : ι} {x : Multipart} {r1 : Bool} (hp : (f (e.state n)).pc = .hold i x r1) :
    ∃ m, n ≤ m ∧ (f (e.state m)).passed = (f (e.state n)).passed ++ [(i, x)] := by
  apply Classical.byContradiction
  intro hno
  have hst : ∀ m, n ≤ m → (f (e.state m)).pc = .hold i x r1 ∧ (f (e.state m)).passed = (f (e.state n)).passed := by
    intro m hm
    induction hm with
    | refl => exact ⟨hp, rfl⟩
    | @step m hm ih =>
      have := e.ok m
      cases hw : e.who m with
      | none =>
        rw [hw] at this; simp only at this
        show (f (e.state (m + 1))).pc = _ ∧ (f (e.state (m + 1))).passed = _
        rw [this]; exact ih
      | some b =>
        rw [hw] at this
        simp only at this
        by_cases hb : b = w
        · subst hb
          exfalso
          refine hno ⟨m + 1, Nat.le_succ_of_le hm, ?_⟩
          generalize f (e.state (m + 1)) = y, hi.self _ _ this = hy
          cases hy with
          | send i' m' r1' hp' =>
            rw [ih.1] at hp'
            cases hp'
            show _ ++ _ = _
            rw [ih.2]
          | sendCtl hp' => rw [ih.1] at hp'; cases hp'
          | sample0 r hp' _ => rw [ih.1] at hp'; cases hp'
          | sample1 r0 hp' _ => rw [ih.1] at hp'; cases hp'
          | none hp' _ => rw [ih.1] at hp'; cases hp'
          | recv r1 i m r hp' _ => rw [ih.1] at hp'; cases hp'
          | skip r1 hp' => rw [ih.1] at hp'; cases hp'
          | again hp' => rw [ih.1] at hp'; cases hp'
          | recvCtl hp' => rw [ih.1] at hp'; cases hp'
        · have ht := hi.other b _ _ hb this
          exact ⟨ht.1.trans ih.1, ht.2.1.trans ih.2⟩
  obtain ⟨m, hm, h⟩ := hi.progress e hf hs n (.inr ⟨i, x, r1, hp⟩)
  obtain ⟨h1, h2⟩ := hst m hm
  rcases h with h | h
  · rw [h2] at h; omega
  · rw [h1] at h; cases h

theorem passedOf_append {a b : Relay ι} {x : List (ι × Multipart)} (h : b.passed = a.passed ++ x) (i : ι) :
    b.passedOf i = a.passedOf i ++ (x.filter fun y => y.1 = i).map Prod.snd := by
  unfold passedOf; rw [h, List.filter_append, List.map_append]

theorem Inside.passedOf_mono (hi : Inside step f w) (e : Execution step) {n m : Nat} (h : n ≤ m) (i : ι) :
    ((f (e.state n)).passedOf i).length ≤ ((f (e.state m)).passedOf i).length := by
  obtain ⟨x, hx⟩ := hi.passed_mono e h
  rw [passedOf_append hx.symm, List.length_append]
  omega

/-- Every message of a source is passed on if the socket is fair to it, unless the thread ends. -/
theorem Inside.serves (hi : Inside step f w) (e : Execution step) (hf : Fair e w) (hs : ∀ n, (f (e.state n)).Seen)
    (hc : ∀ n, (f (e.state n)).Counted) (i : ι) (hq : FairSource f e i) (n k : Nat)
    (hk : k < ((f (e.state n)).given i).length) :
    ∃ m, n ≤ m ∧ (k < ((f (e.state m)).passedOf i).length ∨ (f (e.state m)).pc = .over) := by
  have hg : ∀ m, n ≤ m → k < ((f (e.state m)).given i).length :=
    fun m hm => Nat.lt_of_lt_of_le hk (hi.given_mono e hm i).length_le
  apply Classical.byContradiction
  intro hno
  have hno1 : ∀ m, n ≤ m → ((f (e.state m)).passedOf i).length ≤ k :=
    fun m hm => Nat.not_lt.1 fun h => hno ⟨m, hm, .inl h⟩
  have hno2 : ∀ m, n ≤ m → (f (e.state m)).pc ≠ .over := fun m hm h => hno ⟨m, hm, .inr h⟩
  -- the number passed on grows beyond any bound
  have hgrow : ∀ c, ∃ m, n ≤ m ∧ c ≤ ((f (e.state m)).passedOf i).length := by
    intro c
    induction c with
    | zero => exact ⟨n, Nat.le_refl _, Nat.zero_le _⟩
    | succ c ih =>
      obtain ⟨m, hm, hcm⟩ := ih
      -- a message of the source is in hand at some time
      have hhold : ∃ m', m ≤ m' ∧ ∃ x r1, (f (e.state m')).pc = .hold i x r1 := by
        apply Classical.byContradiction
        intro hnh
        have hw : ∀ m', m ≤ m' → (f (e.state m')).inq i ≠ [] := by
          intro m' hm' h0
          have h1 := hc m' i
          have h2 := hg m' (by omega)
          have h3 := hno1 m' (by omega)
          have h4 : (f (e.state m')).held i = [] := by
            unfold held
            split
            · rename_i j x r1 hp
              split
              · rename_i hj
                subst hj
                exact absurd ⟨m', hm', x, r1, hp⟩ hnh
              · rfl
            · rfl
          rw [h1, h4, h0] at h2
          simp at h2
          omega
        exact hnh (hq m hw fun L => (hi.unbounded e hf hs m (fun m' hm' => .inl ⟨i, hw m' hm'⟩)
          (fun m' hm' => hno2 m' (by omega)) L).imp fun _ h => h.2)
      obtain ⟨m', hm', x, r1, hp⟩ := hhold
      obtain ⟨m'', hm'', h⟩ := hi.sends e hf hs m' hp
      refine ⟨m'', by omega, ?_⟩
      have h1 := hi.passedOf_mono e hm' i
      rw [passedOf_append h]
      simp
      omega
  obtain ⟨m, hm, h⟩ := hgrow (k + 1)
  have := hno1 m hm
  omega

/-- With a single source the socket is fair. -/
theorem Inside.fairSource {f : S → Relay Unit} (hi : Inside step f w) (e : Execution step) : FairSource f e () := by
  intro n _ hL
  apply Classical.byContradiction
  intro hno
  have hst : ∀ m, n ≤ m → (f (e.state m)).passed = (f (e.state n)).passed := by
    intro m hm
    induction hm with
    | refl => rfl
    | @step m hm ih =>
      have := e.ok m
      cases hw : e.who m with
      | none => rw [hw] at this; simp only at this; show (f (e.state (m + 1))).passed = _; rw [this]; exact ih
      | some b =>
        rw [hw] at this
        simp only at this
        by_cases hb : b = w
        · subst hb
          show (f (e.state (m + 1))).passed = _
          generalize f (e.state (m + 1)) = y, hi.self _ _ this = hy
          cases hy with
          | send i x r1 hp => exact absurd ⟨m, hm, x, r1, hp⟩ hno
          | _ => exact ih
        · exact (hi.other b _ _ hb this).2.1.trans ih
  obtain ⟨m, hm⟩ := hL ((f (e.state n)).passed.length + 1)
  by_cases h : n ≤ m
  · rw [hst m h] at hm; omega
  · have := (hi.passed_mono e (Nat.le_of_lt (Nat.not_le.1 h))).length_le
    omega

end Xeus.Relay
