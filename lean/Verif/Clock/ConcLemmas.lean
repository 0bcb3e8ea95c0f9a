import Verif.Clock.ConcSpec

/-!
# Dates made by several threads: lemmas
-/

namespace Xeus.Clock

open Xeus Spec

variable {gmtime : Nat → Utc}

theorem Part.mem_all (p : Part) : p ∈ Part.all := by cases p <;> decide

/-- Two ways to find the last entry of a thread. -/
theorem last_began {a b a' b' : List Call} {i n n' : Nat} (h : a ++ .began i n :: b = a' ++ .began i n' :: b')
    (hb : ∀ x ∈ b, x.thread ≠ i) (hb' : ∀ x ∈ b', x.thread ≠ i) : a = a' ∧ n = n' ∧ b = b' := by
  rcases List.append_eq_append_iff.1 h with ⟨c, rfl, h2⟩ | ⟨c, rfl, h2⟩
  · cases c with
    | nil => simp at h2; exact ⟨by simp, h2.1, h2.2⟩
    | cons x c =>
      simp only [List.cons_append, List.cons.injEq] at h2
      exact absurd rfl (hb (.began i n') (by rw [h2.2]; simp))
  · cases c with
    | nil => simp at h2; exact ⟨by simp, h2.1.symm, h2.2.symm⟩
    | cons x c =>
      simp only [List.cons_append, List.cons.injEq] at h2
      exact absurd rfl (hb' (.began i n) (by rw [h2.2]; simp))

/-- A call in progress overlaps the call of another thread in progress. -/
theorem running_overlaps {log a seg : List Call} {i j n m : Nat} (h : log = a ++ .began i n :: seg) (hij : j ≠ i)
    (hr : Running log j m) : Overlaps a seg m := by
  obtain ⟨a', b', h', hb⟩ := hr
  rw [h] at h'
  rcases List.append_eq_append_iff.1 h' with ⟨c, rfl, h2⟩ | ⟨c, rfl, h2⟩
  · cases c with
    | nil => simp at h2; exact absurd h2.1.1.symm hij
    | cons x c =>
      simp only [List.cons_append, List.cons.injEq] at h2
      exact .inr ⟨j, by rw [h2.2]; simp⟩
  · cases c with
    | nil => simp at h2; exact absurd h2.1.1 hij
    | cons x c =>
      simp only [List.cons_append, List.cons.injEq] at h2
      refine .inl ⟨j, a', c, by rw [h2.1], fun y hy => hb y ?_⟩
      rw [h2.2]
      simp [hy]

/-- A value of a field that belongs to the call or to one that overlaps it. -/
def Src (gmtime : Nat → Utc) (a seg : List Call) (now : Nat) (p : Part) (v : Nat) : Prop :=
  ∃ n, (n = now ∨ Overlaps a seg n) ∧ v = (gmtime (n / 1000000000)).get p

theorem Src.more {a seg : List Call} {now : Nat} {p : Part} {v : Nat} (h : Src gmtime a seg now p v) (es : List Call) :
    Src gmtime a (seg ++ es) now p v := by
  obtain ⟨n, h1, h2⟩ := h
  refine ⟨n, ?_, h2⟩
  rcases h1 with h | h | ⟨j, h⟩
  · exact .inl h
  · exact .inr (.inl h)
  · exact .inr (.inr ⟨j, by simp [h]⟩)

/-- A thread and what it finds in the shared fields. -/
def Sound (gmtime : Nat → Utc) (buf : Part → Nat) (log : List Call) (i : Nat) : Pc → Prop
  | .idle => True
  | .fill now todo => ∃ a seg, log = a ++ .began i now :: seg ∧ (∀ x ∈ seg, x.thread ≠ i) ∧
      ∀ p, p ∉ todo → Src gmtime a seg now p (buf p)
  | .print now todo got => ∃ a seg, log = a ++ .began i now :: seg ∧ (∀ x ∈ seg, x.thread ≠ i) ∧
      (∀ p, Src gmtime a seg now p (buf p)) ∧ ∀ p, p ∉ todo → Src gmtime a seg now p (got p)

/-- A thread in a call is running. -/
theorem Sound.running {buf : Part → Nat} {log : List Call} {i now : Nat} {todo : List Part}
    (h : Sound gmtime buf log i (.fill now todo)) : Running log i now := by
  obtain ⟨a, seg, h1, h2, _⟩ := h
  exact ⟨a, seg, h1, h2⟩

/-- Another thread logs something. -/
theorem Sound.more {buf : Part → Nat} {log : List Call} {i : Nat} {pc : Pc} (h : Sound gmtime buf log i pc) (x : Call)
    (hx : x.thread ≠ i) : Sound gmtime buf (log ++ [x]) i pc := by
  have hm : ∀ seg : List Call, (∀ y ∈ seg, y.thread ≠ i) → ∀ y ∈ seg ++ [x], y.thread ≠ i := by
    intro seg hseg y hy
    rcases List.mem_append.1 hy with hy | hy
    · exact hseg y hy
    · simp at hy; rw [hy]; exact hx
  cases pc with
  | idle => trivial
  | fill now todo =>
    obtain ⟨a, seg, h1, h2, h3⟩ := h
    exact ⟨a, seg ++ [x], by simp [h1], hm seg h2, fun p hp => (h3 p hp).more _⟩
  | print now todo got =>
    obtain ⟨a, seg, h1, h2, h3, h4⟩ := h
    exact ⟨a, seg ++ [x], by simp [h1], hm seg h2, fun p => (h3 p).more _, fun p hp => (h4 p hp).more _⟩

/-- Another thread writes a field. -/
theorem Sound.disturbed {buf : Part → Nat} {log : List Call} {i j m : Nat} {pc : Pc} (h : Sound gmtime buf log i pc)
    (hij : j ≠ i) (hr : Running log j m) (p : Part) :
    Sound gmtime (put buf p ((gmtime (m / 1000000000)).get p)) log i pc := by
  have key : ∀ {a seg : List Call} {n : Nat} (q : Part), log = a ++ .began i n :: seg → Src gmtime a seg n q (buf q) →
      Src gmtime a seg n q (put buf p ((gmtime (m / 1000000000)).get p) q) := by
    intro a seg n q hl hq
    unfold put
    by_cases hqp : q = p
    · subst hqp
      rw [if_pos rfl]
      exact ⟨m, .inr (running_overlaps hl hij hr), rfl⟩
    · rw [if_neg hqp]; exact hq
  have key' : ∀ {a seg : List Call} {n : Nat}, log = a ++ .began i n :: seg →
      Src gmtime a seg n p (put buf p ((gmtime (m / 1000000000)).get p) p) := by
    intro a seg n hl
    unfold put
    rw [if_pos rfl]
    exact ⟨m, .inr (running_overlaps hl hij hr), rfl⟩
  cases pc with
  | idle => trivial
  | fill now todo =>
    obtain ⟨a, seg, h1, h2, h3⟩ := h
    exact ⟨a, seg, h1, h2, fun q hq => key q h1 (h3 q hq)⟩
  | print now todo got =>
    obtain ⟨a, seg, h1, h2, h3, h4⟩ := h
    exact ⟨a, seg, h1, h2, fun q => key q h1 (h3 q), h4⟩

/-- What is known of a text returned. -/
def Mixed (gmtime : Nat → Utc) (a seg : List Call) (now : Nat) (text : Str) : Prop :=
  ∃ t : Utc, text = textOf t now ∧ ∀ p, Src gmtime a seg now p (t.get p)

theorem gather_get (v : Part → Nat) (p : Part) : (gather v).get p = v p := by cases p <;> rfl

/-- All threads and all finished calls. -/
structure DInv (gmtime : Nat → Utc) (s : Dates) : Prop where
  threads : ∀ i, Sound gmtime s.buf s.log i (s.pc i)
  past : ∀ a seg i now text, Made s.log a seg i now text → Mixed gmtime a seg now text

/-- What was made is what was made before, or the last call. -/
theorem made_snoc {log a seg : List Call} {x : Call} {i now : Nat} {text : Str} (h : Made (log ++ [x]) a seg i now text) :
    Made log a seg i now text ∨ (x = .ended i text ∧ log = a ++ .began i now :: seg ∧ ∀ y ∈ seg, y.thread ≠ i) := by
  obtain ⟨after, h1, h2⟩ := h
  rcases List.eq_nil_or_concat after with rfl | ⟨af, y, rfl⟩
  · refine .inr ?_
    have : log ++ [x] = (a ++ .began i now :: seg) ++ [.ended i text] := by simp [h1]
    obtain ⟨h3, h4⟩ := List.append_inj' this rfl
    exact ⟨by simpa using h4, h3, h2⟩
  · refine .inl ⟨af, ?_, h2⟩
    have : log ++ [x] = (a ++ .began i now :: (seg ++ .ended i text :: af)) ++ [y] := by simp [h1]
    exact (List.append_inj' this rfl).1

theorem put_self {α β : Type} [DecidableEq α] (f : α → β) (a : α) (b : β) : put f a b a = b := by simp [put]

theorem put_other {α β : Type} [DecidableEq α] (f : α → β) {a x : α} (b : β) (h : x ≠ a) : put f a b x = f x := by simp [put, h]

/-- The invariant holds. -/
theorem dinv_reach {s : Dates} (h : Dates.Reach gmtime s) : DInv gmtime s := by
  induction h with
  | init buf =>
    refine ⟨fun _ => trivial, fun a seg i now text h => ?_⟩
    obtain ⟨_, h, _⟩ := h
    simp at h
  | @step s _ _ hs ih =>
    cases hs with
    | start i now hp =>
      refine ⟨fun k => ?_, fun a seg j n text h => ?_⟩
      · by_cases hk : k = i
        · subst hk
          simp only [put_self]
          exact ⟨s.log, [], rfl, by simp, fun p hn => absurd p.mem_all hn⟩
        · simp only [put_other _ _ hk]
          exact (ih.threads k).more _ fun h => hk h.symm
      · rcases made_snoc h with h | ⟨h, _⟩
        · exact ih.past a seg j n text h
        · cases h
    | write i now todo p hp hm =>
      refine ⟨fun k => ?_, ih.past⟩
      have hi := ih.threads i
      rw [hp] at hi
      by_cases hk : k = i
      · subst hk
        simp only [put_self]
        obtain ⟨a, seg, h1, h2, h3⟩ := hi
        refine ⟨a, seg, h1, h2, fun q hq => ?_⟩
        by_cases hqp : q = p
        · subst hqp
          rw [put_self]
          exact ⟨now, .inl rfl, rfl⟩
        · rw [put_other _ _ hqp]
          exact h3 q fun h => hq (by simp [h, hqp])
      · simp only [put_other _ _ hk]
        exact (ih.threads k).disturbed (fun h => hk h.symm) hi.running p
    | written i now hp =>
      refine ⟨fun k => ?_, ih.past⟩
      by_cases hk : k = i
      · subst hk
        simp only [put_self]
        have hi := ih.threads k
        rw [hp] at hi
        obtain ⟨a, seg, h1, h2, h3⟩ := hi
        exact ⟨a, seg, h1, h2, fun p => h3 p (by simp), fun p hn => absurd p.mem_all hn⟩
      · simp only [put_other _ _ hk]
        exact ih.threads k
    | read i now p todo got hp =>
      refine ⟨fun k => ?_, ih.past⟩
      by_cases hk : k = i
      · subst hk
        simp only [put_self]
        have hi := ih.threads k
        rw [hp] at hi
        obtain ⟨a, seg, h1, h2, h3, h4⟩ := hi
        refine ⟨a, seg, h1, h2, h3, fun q hq => ?_⟩
        by_cases hqp : q = p
        · subst hqp; rw [put_self]; exact h3 q
        · rw [put_other _ _ hqp]; exact h4 q (by simp [hqp, hq])
      · simp only [put_other _ _ hk]
        exact ih.threads k
    | finish i now got hp =>
      have hi := ih.threads i
      rw [hp] at hi
      refine ⟨fun k => ?_, fun a seg j n text h => ?_⟩
      · by_cases hk : k = i
        · subst hk; simp only [put_self]; trivial
        · simp only [put_other _ _ hk]
          exact (ih.threads k).more _ fun h => hk h.symm
      · rcases made_snoc h with h | ⟨h, h1, h2⟩
        · exact ih.past a seg j n text h
        · simp only [Call.ended.injEq] at h
          obtain ⟨rfl, rfl⟩ := h
          obtain ⟨a', seg', h1', h2', _, h4⟩ := hi
          rw [h1] at h1'
          obtain ⟨rfl, rfl, rfl⟩ := last_began h1' h2 h2'
          exact ⟨gather got, rfl, fun p => by rw [gather_get]; exact h4 p (by simp)⟩

end Xeus.Clock
