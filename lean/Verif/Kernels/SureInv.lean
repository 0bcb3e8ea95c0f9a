import Verif.Kernels.SureDispatch
import Verif.Server.Lemmas

/-!
# Parallel handling without failure: the invariant (no property statements here)
-/

namespace Xeus

open Spec K

variable {σ : Type}

theorem received_append (a b : List Act) : received (a ++ b) = received a ++ received b := by
  induction a with
  | nil => rfl
  | cons x a ih => cases x <;> simp [received, ih]

theorem received_entries {t : Chan} {w w' : World σ} (h : w'.shellQ <:+ w.shellQ) :
    received (entries t w w') ++ w'.shellQ = w.shellQ := by
  obtain ⟨p, hp⟩ := h
  have hl : w.shellQ.length - w'.shellQ.length = p.length := by rw [← hp]; simp
  have ht : w.shellQ.take (w.shellQ.length - w'.shellQ.length) = p := by rw [hl, ← hp]; simp
  have h1 : ∀ l : List Multipart, received (l.map (.drained t)) = l := by
    intro l
    induction l with
    | nil => rfl
    | cons q l ih => simp [received, ih]
  have h2 : ∀ l : List Ev, received (l.map (.did t)) = [] := by
    intro l
    induction l with
    | nil => rfl
    | cons q l ih => simp [received, ih]
  unfold entries
  rw [received_append, h1, h2, ht, List.append_nil, hp]

/-- The invariant. -/
structure SInv (env : Env) (thr halt keep : Prop) (c₀ : Comms) (s : Conc σ) : Prop where
  placid : Placid env thr halt c₀ s.w
  sure : ∃ n k : Chan → Nat, (∀ t, Sure (Placid env thr halt c₀) keep 0 0 (Val? fun _ => True) (n t) (k t) (s.prog t)) ∧
    s.w.count + n .shell + n .control + s.w.shellQ.length + s.controlQ.length ≤ (arrived s).length ∧
    s.w.hist.length + k .shell + k .control + s.w.shellQ.length + s.controlQ.length ≤ (arrived s).length
  calm : ∀ t e, Act.did t e ∈ s.log → (∀ x, e = .threw x → thr) ∧ (e = .stop → halt)
  kept : keep → ∀ t q, Act.drained t q ∉ s.log

theorem arrived_act {s : Conc σ} {t : Chan} {p : K (World σ) Unit} {w' : World σ} (h : w'.shellQ <:+ s.w.shellQ) :
    (arrived { s with w := w', prog := setProg s t p, log := s.log ++ entries t s.w w' }).length = (arrived s).length ∧
    ∀ q, q ∈ arrived s ↔ q ∈ arrived { s with w := w', prog := setProg s t p, log := s.log ++ entries t s.w w' } := by
  have := received_entries (t := t) h
  constructor
  · have := congrArg List.length this
    simp only [List.length_append] at this
    simp only [arrived, received_append, List.length_append]
    omega
  · intro q
    simp only [arrived, received_append, List.mem_append]
    rw [← this, List.mem_append]
    constructor
    · rintro ((h | h) | h | h) <;> simp [h]
    · rintro (((h | h) | h) | h) <;> simp [h]

/-- Nothing that arrived is forgotten. -/
theorem arrived_step {env : Env} {I : Interp σ} {s s' : Conc σ} (h : CStep env I s s')
    (hsuf : ∀ t p w', (s.prog t).step s.w = some (p, w') → w'.shellQ <:+ s.w.shellQ) :
    (arrived s).length ≤ (arrived s').length ∧ ∀ q ∈ arrived s, q ∈ arrived s' := by
  cases h with
  | arriveShell q => exact ⟨by simp only [arrived, List.length_append]; omega, fun x hx => by
      simp only [arrived, List.mem_append] at hx ⊢; rcases hx with (h | h) | h <;> simp [h]⟩
  | arriveControl q => exact ⟨by simp only [arrived, List.length_append]; omega, fun x hx => by
      simp only [arrived, List.mem_append] at hx ⊢; rcases hx with (h | h) | h <;> simp [h]⟩
  | arriveStdin q => exact ⟨Nat.le_refl _, fun x hx => hx⟩
  | takeShell q r hp hq =>
    refine ⟨?_, fun x hx => ?_⟩
    · simp only [arrived, hq, received_append, List.length_append, received, List.length_cons, List.length_nil]; omega
    · simp only [arrived, hq, received_append, List.mem_append, received, List.mem_cons, List.not_mem_nil, or_false] at hx ⊢
      rcases hx with (h | h) | h | h <;> simp [h]
  | takeControl q r hp hq =>
    refine ⟨?_, fun x hx => ?_⟩
    · simp only [arrived, hq, received_append, List.length_append, received, List.length_cons, List.length_nil]; omega
    · simp only [arrived, hq, received_append, List.mem_append, received, List.mem_cons, List.not_mem_nil, or_false] at hx ⊢
      rcases hx with (h | h | h) | h <;> simp [h]
  | act t p w' hst =>
    obtain ⟨h1, h2⟩ := arrived_act (s := s) (t := t) (p := p) (hsuf t p w' hst)
    exact ⟨Nat.le_of_eq h1.symm, fun q hq => (h2 q).1 hq⟩

theorem entries_calm {t : Chan} {w w' : World σ} {e : Ev} {t' : Chan} (hm : Act.did t' e ∈ entries t w w') :
    e ∈ w'.out := by
  rcases List.mem_append.1 hm with hm | hm
  · obtain ⟨_, _, h⟩ := List.mem_map.1 hm; cases h
  · obtain ⟨x, hx, h'⟩ := List.mem_map.1 hm
    cases h'
    exact List.mem_of_mem_drop hx

theorem sinv_step {env : Env} [Steady env] (hs : Sane env) {I : Interp σ} {thr halt keep : Prop} {c₀ : Comms} (hI : MildInterp env.eh thr I)
    (hk : keep → Cheerful I) (hreg : c₀.reg = []) {s s' : Conc σ} (h : SInv env thr halt keep c₀ s) (hst : CStep env I s s')
    (hl : ((arrived s).length : Int) ≤ intMax) (hp : ∀ q ∈ arrived s', Proper env (c₀.names.map (·.1)) q)
    (hst' : ∀ q ∈ arrived s', Shuts env q → halt) :
    SInv env thr halt keep c₀ s' := by
  obtain ⟨hpl, ⟨n, k, h1, h2, h3⟩, h4, h5⟩ := h
  cases hst with
  | arriveShell q =>
    refine ⟨⟨hpl.parents, hpl.comm, hpl.count, hpl.hist, fun x hx => ?_, hpl.calm⟩, ⟨n, k, h1, ?_, ?_⟩, h4, h5⟩
    · exact (hp x (List.mem_append_right _ hx)).1
    · simp only [arrived, List.length_append, List.length_singleton] at h2 ⊢; omega
    · simp only [arrived, List.length_append, List.length_singleton] at h3 ⊢; omega
  | arriveControl q =>
    refine ⟨hpl, ⟨n, k, h1, ?_, ?_⟩, h4, h5⟩
    · simp only [arrived, List.length_append, List.length_singleton] at h2 ⊢; omega
    · simp only [arrived, List.length_append, List.length_singleton] at h3 ⊢; omega
  | arriveStdin q => exact ⟨hpl.same rfl rfl rfl rfl rfl rfl, ⟨n, k, h1, h2, h3⟩, h4, h5⟩
  | takeShell q r hd hq =>
    have hpr : Proper env (c₀.names.map (·.1)) q := hp q (by simp [arrived, received_append, received])
    have hsh : Shuts env q → halt := hst' q (by simp [arrived, received_append, received])
    refine ⟨⟨hpl.parents, hpl.comm, hpl.count, hpl.hist, fun x hx => ?_, hpl.calm⟩,
      ⟨fun t => if t = .shell then 1 else n t, fun t => if t = .shell then 1 else k t, fun t => ?_, ?_, ?_⟩, fun t e he => ?_,
      fun hk t q he => ?_⟩
    · exact hpl.queue x (by rw [hq]; exact List.mem_cons_of_mem _ hx)
    · by_cases ht : t = .shell
      · subst ht
        simp only [setProg, if_true]
        exact sure_dispatch hs hI hk hreg hpr hsh _
      · simp only [setProg, if_neg ht]
        exact h1 t
    · simp only [arrived, hq, received_append, received, List.length_append, List.length_cons, List.length_nil] at h2 ⊢
      simp only [if_true, reduceCtorEq, if_false]
      omega
    · simp only [arrived, hq, received_append, received, List.length_append, List.length_cons, List.length_nil] at h3 ⊢
      simp only [if_true, reduceCtorEq, if_false]
      omega
    · rcases List.mem_append.1 he with he | he
      · exact h4 t e he
      · simp at he
    · rcases List.mem_append.1 he with he | he
      · exact h5 hk t q he
      · simp at he
  | takeControl q r hd hq =>
    have hpr : Proper env (c₀.names.map (·.1)) q := hp q (by simp [arrived, received_append, received])
    have hsh : Shuts env q → halt := hst' q (by simp [arrived, received_append, received])
    refine ⟨hpl, ⟨fun t => if t = .control then 1 else n t, fun t => if t = .control then 1 else k t, fun t => ?_, ?_, ?_⟩,
      fun t e he => ?_, fun hk t q he => ?_⟩
    · by_cases ht : t = .control
      · subst ht
        simp only [setProg, if_true]
        exact sure_dispatch hs hI hk hreg hpr hsh _
      · simp only [setProg, if_neg ht]
        exact h1 t
    · simp only [arrived, hq, received_append, received, List.length_append, List.length_cons, List.length_nil] at h2 ⊢
      simp only [if_true, reduceCtorEq, if_false]
      omega
    · simp only [arrived, hq, received_append, received, List.length_append, List.length_cons, List.length_nil] at h3 ⊢
      simp only [if_true, reduceCtorEq, if_false]
      omega
    · rcases List.mem_append.1 he with he | he
      · exact h4 t e he
      · simp at he
    · rcases List.mem_append.1 he with he | he
      · exact h5 hk t q he
      · simp at he
  | act t p w' hst =>
    have hb : s.w.count + (n t : Nat) ≤ (arrived s).length ∧ s.w.hist.length + k t ≤ (arrived s).length := by
      cases t <;> omega
    obtain ⟨n', k', g1, g2, g3, g4, g5, g6⟩ := (h1 t).step hpl (by omega) (by omega) hst
    obtain ⟨a1, a2⟩ := arrived_act (s := s) (t := t) (p := p) g4
    have hlen := g4.length_le
    refine ⟨g1, ⟨fun t' => if t' = t then n' else n t', fun t' => if t' = t then k' else k t', fun t' => ?_, ?_, ?_⟩,
      fun t' e he => ?_, fun hk t' q he => ?_⟩
    · by_cases ht : t' = t
      · subst ht
        simp only [setProg, if_true]
        exact g6
      · simp only [setProg, if_neg ht]
        exact h1 t'
    · rw [a1]
      cases t <;> (simp only [if_true, reduceCtorEq, if_false]; omega)
    · rw [a1]
      cases t <;> (simp only [if_true, reduceCtorEq, if_false]; omega)
    · rcases List.mem_append.1 he with he | he
      · exact h4 t' e he
      · exact g1.calm e (entries_calm he)
    · rcases List.mem_append.1 he with he | he
      · exact h5 hk t' q he
      · rcases List.mem_append.1 he with he | he
        · rw [g5 hk, Nat.sub_self] at he
          simp at he
        · obtain ⟨_, _, h⟩ := List.mem_map.1 he; cases h

theorem sinv_reach {env : Env} [Steady env] (hs : Sane env) {I : Interp σ} {thr halt keep : Prop} (hI : MildInterp env.eh thr I)
    (hk : keep → Cheerful I) {st : Start σ} (hb : Blank st) {s : Conc σ} (h : CReach env I st s)
    (hl : ((arrived s).length : Int) ≤ intMax) (hp : ∀ q ∈ arrived s, Proper env (targetNames st) q)
    (hst' : ∀ q ∈ arrived s, Shuts env q → halt) :
    SInv env thr halt keep st.w.comm s := by
  induction h with
  | start =>
    refine ⟨⟨fun c => ?_, rfl, by rw [st.count]; exact Int.le_refl _, ?_, ?_, ?_⟩, ⟨fun _ => 0, fun _ => 0, fun _ => ?_, ?_, ?_⟩,
      fun _ _ h => (by cases h), fun _ _ _ h => (by cases h)⟩
    · rw [st.parent]; exact ⟨(by decide : (Json.obj []).canon = true), .obj (by simp) (by simp)⟩
    · rw [hb.2]; simp
    · rw [st.shellQ]; simp
    · rw [st.out]; simp
    · exact ⟨Nat.le_refl _, Nat.le_refl _, _, rfl, trivial⟩
    · simp [arrived, received, st.shellQ, st.count]
    · simp [arrived, received, st.shellQ, hb.2]
  | step _ hst ih =>
    rename_i s s' hr
    have hsuf : ∀ t p w', (s.prog t).step s.w = some (p, w') → w'.shellQ <:+ s.w.shellQ := fun t p w' h => (creach_kept hr h).2
    obtain ⟨g1, g2⟩ := arrived_step hst hsuf
    exact sinv_step hs hI hk hb.1 (ih (by omega) (fun q hq => hp q (g2 q hq)) fun q hq => hst' q (g2 q hq)) hst (by omega) hp hst'

end Xeus
