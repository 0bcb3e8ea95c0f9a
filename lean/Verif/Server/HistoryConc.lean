import Verif.KernelConc.Pen
import Verif.Server.Transcript

/-!
# The history of a kernel with two threads: lemmas (no property statements here)
-/

namespace Xeus

open Spec K

variable {σ : Type} {env : Env} {I : Interp σ}

theorem Spec.Merge.snocLeft {α : Type} {a b c : List α} (h : Merge a b c) (d : List α) : Merge (a ++ d) b (c ++ d) := by
  induction h with
  | nil =>
    induction d with
    | nil => exact .nil
    | cons x d ih => exact .left x ih
  | left x _ ih => exact .left x ih
  | right x _ ih => exact .right x ih

theorem Spec.Merge.snocRight {α : Type} {a b c : List α} (h : Merge a b c) (d : List α) : Merge a (b ++ d) (c ++ d) := by
  induction h with
  | nil =>
    induction d with
    | nil => exact .nil
    | cons x d ih => exact .right x ih
  | left x _ ih => exact .left x ih
  | right x _ ih => exact .right x ih

/-- What thread `t` has written (`l`) and may still write, having done what the log says. -/
inductive Page (env : Env) (t : Chan) (log : List Act) (p : K (World σ) Unit) : Hist → Prop
  | none : (∀ q, Act.took t q ∉ log) → eventsOf t log = [] → p = .done (.ok ()) → Page env t log p []
  | some (a : List Act) (q : Multipart) (seg : List Act) (l d : Hist) : log = a ++ .took t q :: seg → (∀ x, Act.took t x ∉ seg) →
      Ledger env ((tookBy t a).map fun q => (t, q)) (eventsOf t a) l → NotedQ env q (eventsOf t seg) d →
      Pen (NotedQ env q) (eventsOf t seg) d (fun es d x => x = .ok () → FinalQ env q es d) p → Page env t log p (l ++ d)

namespace Page

variable {t : Chan} {log : List Act} {p : K (World σ) Unit} {l : Hist}

theorem other (h : Page env t log p l) {es : List Act} (h1 : ∀ x, Act.took t x ∉ es) (h2 : eventsOf t es = []) :
    Page env t (log ++ es) p l := by
  cases h with
  | none h3 h4 h5 =>
    refine .none (fun q hq => ?_) (by rw [eventsOf_app, h4, h2]; rfl) h5
    rcases List.mem_append.1 hq with hq | hq
    · exact h3 q hq
    · exact h1 q hq
  | some a q seg l d h3 h4 h5 h6 h7 =>
    have e : eventsOf t (seg ++ es) = eventsOf t seg := by rw [eventsOf_app, h2, List.append_nil]
    refine .some a q (seg ++ es) l d (by rw [h3]; simp) ?_ h5 (by rw [e]; exact h6) (by rw [e]; exact h7)
    intro x hx
    rcases List.mem_append.1 hx with hx | hx
    · exact h4 x hx
    · exact h1 x hx

theorem step (h : Page env t log p l) {p' : K (World σ) Unit} {w w' : World σ} (hs : p.step w = Option.some (p', w')) :
    ∃ d, w'.hist = w.hist ++ d ∧ Page env t (log ++ entries t w w') p' (l ++ d) := by
  cases h with
  | none h3 h4 h5 => rw [h5] at hs; cases hs
  | some a q seg l d h3 h4 h5 h6 h7 =>
    obtain ⟨es', d', g1, g2, g3, g4⟩ := h7.step hs
    have e : eventsOf t (seg ++ entries t w w') = eventsOf t seg ++ es' := by
      rw [eventsOf_app]
      congr 1
      have : eventsOf t ((w.shellQ.take (w.shellQ.length - w'.shellQ.length)).map (Act.drained t)) = [] := by
        generalize w.shellQ.take _ = l
        induction l with
        | nil => rfl
        | cons x l ih => exact ih
      rw [entries, eventsOf_app, this, g1, List.drop_left]
      generalize es' = l
      induction l with
      | nil => rfl
      | cons x l ih =>
        simp only [List.map_cons, eventsOf, if_true, List.nil_append, List.cons.injEq, true_and] at ih ⊢
        exact ih
    refine ⟨d', g2, ?_⟩
    rw [List.append_assoc]
    refine .some a q (seg ++ entries t w w') l (d ++ d') (by rw [h3]; simp) ?_ h5 (by rw [e]; exact g3) (by rw [e]; exact g4)
    intro x hx
    rcases List.mem_append.1 hx with hx | hx
    · exact h4 x hx
    · exact entries_noTook t t w w' x hx

theorem ledger {s : Conc σ} (hc : CInv env I s) (h : Page env t s.log (s.prog t) l) (hp : s.prog t = .done (.ok ())) :
    Ledger env ((tookBy t s.log).map fun q => (t, q)) (eventsOf t s.log) l := by
  cases h with
  | none h3 h4 _ => rw [tookBy_none h3, h4]; exact .nil
  | some a q seg l d h3 h4 h5 h6 h7 =>
    rw [hp] at h7
    have hF := h7 rfl
    have e1 : tookBy t s.log = tookBy t a ++ [q] := by rw [h3, tookBy_append]; simp [tookBy, tookBy_none h4]
    have e2 : eventsOf t s.log = eventsOf t a ++ eventsOf t seg := by rw [h3, eventsOf_app]; rfl
    rw [e1, e2, List.map_append]
    rcases hc.thread t with ⟨h8, _⟩ | ⟨a', q', seg', h8, h9, h10, _⟩
    · exact absurd rfl (h8 (.took t q) (by rw [h3]; simp))
    · obtain ⟨rfl, rfl⟩ := last_took h3 h4 h8 h9
      rw [hp] at h10
      generalize hg : own t seg = tr at h10
      generalize hd : (K.done (.ok ()) : K (World σ) Unit) = pr at h10
      have he : eventsOf t seg = eventsOf t tr := by rw [← hg, eventsOf_own]
      cases h10 with
      | refused g1 g2 =>
        cases hd
        rw [he]
        rcases hF with ⟨_, rfl⟩ | ⟨m, ha, _⟩
        · simp only [eventsOf, List.append_nil]
          exact h5.refused t q (g2 rfl)
        · exact absurd rfl (g1 m ha)
      | begun _ => cases hd
      | half _ _ => cases hd
      | work ha _ _ hs =>
        subst hd
        have hb := hs rfl
        rw [← he] at hb
        rcases hF with ⟨hr, _⟩ | ⟨m, ha', hF⟩
        · obtain ⟨e, h⟩ := refused_exc _ _ _ _ hr
          rw [accepted_ok _ _ _ _ _ ha] at h
          cases h.1
        · have hm := accepted_ok _ _ _ _ _ ha
          rw [accepted_ok _ _ _ _ _ ha'] at hm
          cases hm
          rcases hF with ⟨rfl, hF⟩ | ⟨e, g1, g2, rfl⟩
          · rw [List.append_nil]
            exact h5.other t q _ _ ha hb hF
          · exact h5.stored t q _ _ e ha hb g1 g2

theorem ongoing (h : Page env t log p l) : Ongoing env ((tookBy t log).map fun q => (t, q)) (eventsOf t log) l := by
  cases h with
  | none h3 h4 _ => rw [tookBy_none h3, h4]; exact .whole .nil
  | some a q seg l d h3 h4 h5 h6 h7 =>
    have e1 : tookBy t log = tookBy t a ++ [q] := by rw [h3, tookBy_append]; simp [tookBy, tookBy_none h4]
    have e2 : eventsOf t log = eventsOf t a ++ eventsOf t seg := by rw [h3, eventsOf_app]; rfl
    rw [e1, e2, List.map_append]
    rcases h6 with rfl | ⟨m, e, h1, h2, h3, rfl⟩
    · rw [List.append_nil]; exact .unstored t q _ h5
    · exact .stored t q m _ e h5 h1 h2 h3

end Page

/-- The history and who wrote what. -/
def Written (env : Env) (st : Start σ) (s : Conc σ) : Prop :=
  ∃ l : Chan → Hist, ∃ h, s.w.hist = st.w.hist ++ h ∧ Merge (l .shell) (l .control) h ∧ ∀ t, Page env t s.log (s.prog t) (l t)

theorem written_reach {st : Start σ} {s : Conc σ} (h : CReach env I st s) : Written env st s := by
  induction h with
  | start => exact ⟨fun _ => [], [], by simp, .nil, fun t => .none (by simp) rfl rfl⟩
  | @step s s' hr hs ih =>
    obtain ⟨l, h, h1, h2, h3⟩ := ih
    have take : ∀ t q, s.prog t = .done (.ok ()) → s'.w.hist = s.w.hist → s'.log = s.log ++ [.took t q] →
        s'.prog = setProg s t (dispatch env I q t) → Written env st s' := by
      intro t q hp hw hl hpr
      refine ⟨l, h, by rw [hw]; exact h1, h2, fun t' => ?_⟩
      by_cases ht : t' = t
      · subst ht
        rw [hpr, hl]
        simp only [setProg, if_true]
        rw [← List.append_nil (l t')]
        exact .some s.log q [] (l t') [] rfl (by simp) ((h3 t').ledger (cinv_reach hr) hp) (.inl rfl) (pen_dispatch q t')
      · rw [hpr, hl]
        simp only [setProg, if_neg ht]
        exact (h3 t').other (by intro x hx; simp at hx; exact ht hx.1) rfl
    cases hs with
    | arriveShell q => exact ⟨l, h, h1, h2, h3⟩
    | arriveControl q => exact ⟨l, h, h1, h2, h3⟩
    | arriveStdin q => exact ⟨l, h, h1, h2, h3⟩
    | takeShell q r hp _ => exact take .shell q hp rfl rfl rfl
    | takeControl q r hp _ => exact take .control q hp rfl rfl rfl
    | act t p w' hst =>
      obtain ⟨d, g1, g2⟩ := (h3 t).step hst
      refine ⟨fun t' => if t' = t then l t ++ d else l t', h ++ d, by show w'.hist = _; rw [g1, h1, List.append_assoc], ?_, fun t' => ?_⟩
      · cases t with
        | shell => exact h2.snocLeft d
        | control => exact h2.snocRight d
      · by_cases ht : t' = t
        · subst ht
          simp only [setProg, if_true]
          exact g2
        · simp only [setProg, if_neg ht]
          refine (h3 t').other (fun x => entries_noTook t t' s.w w' x) ?_
          rw [← eventsOf_own, own_of_none (entries_thread t s.w w') (Ne.symm ht)]
          rfl

end Xeus
