import Verif.Kernels.ManagerSpec
import Verif.Kernels.Whole

/-!
# Kernels with a history manager of their own: lemmas (no property statements here)
-/

namespace Xeus

open Spec

variable {σ : Type} {env : Env} {I : Interp σ}

theorem ledger_nil {l : List (Chan × Multipart)} {es : List Ev} {h : Hist} (hL : Ledger env l es h) (hl : l = []) : es = [] ∧ h = [] := by
  cases hL with
  | nil => exact ⟨rfl, rfl⟩
  | _ => simp at hl

theorem ledger_one {l : List (Chan × Multipart)} {es : List Ev} {h : Hist} {c : Chan} {q : Multipart} (hL : Ledger env l es h)
    (hl : l = [] ++ [(c, q)]) :
    (∃ m e, Accepted env.C env.J env.auth q m ∧ Block env m c es ∧ Storable m e ∧ repliesIn es ≠ [] ∧ h = [e]) ∨
    (∃ m, Accepted env.C env.J env.auth q m ∧ Block env m c es ∧ ((∀ e, ¬ Storable m e) ∨ repliesIn es = []) ∧ h = []) ∨
    (Refused env.C env.J env.auth q ∧ es = [] ∧ h = []) := by
  cases hL with
  | nil => simp at hl
  | stored c' q' m blk e h1 ha hb hst hr =>
    obtain ⟨hl', hx⟩ := List.append_inj' hl rfl
    simp only [List.cons.injEq, Prod.mk.injEq, and_true] at hx
    obtain ⟨rfl, rfl⟩ := hx
    obtain ⟨rfl, rfl⟩ := ledger_nil h1 hl'
    exact .inl ⟨m, e, ha, hb, hst, hr, rfl⟩
  | other c' q' m blk h1 ha hb hst =>
    obtain ⟨hl', hx⟩ := List.append_inj' hl rfl
    simp only [List.cons.injEq, Prod.mk.injEq, and_true] at hx
    obtain ⟨rfl, rfl⟩ := hx
    obtain ⟨rfl, rfl⟩ := ledger_nil h1 hl'
    exact .inr (.inl ⟨m, ha, hb, hst, rfl⟩)
  | refused c' q' h1 hr =>
    obtain ⟨hl', hx⟩ := List.append_inj' hl rfl
    simp only [List.cons.injEq, Prod.mk.injEq, and_true] at hx
    obtain ⟨rfl, rfl⟩ := hx
    obtain ⟨rfl, rfl⟩ := ledger_nil h1 hl'
    exact .inr (.inr ⟨hr, rfl, rfl⟩)

theorem history_hang (hs : Sane env) (I : Interp σ) {q : Multipart} {m : XMessage} (c : Chan) (ha : Accepted env.C env.J env.auth q m)
    (w : World σ) (hr : IsReq m .history) (h : historyRequest env.H w.hist m.body.content = .hang) :
    ∃ w', (dispatch env I q c).run w = (.hang, w') := by
  obtain ⟨w₀, hb, _, _, _, _, hh⟩ := dispatch_req hs I c ha hr w
  exact ⟨w₀, hh _ (by simp only [handle, historyReq, K.run_bind, K.run_readR, hb.hist, h, K.andThen_hang])⟩

theorem chronicle_snoc (hs : Sane env) (hM : ProperManager env.H) {h₀ : Hist} {l : List (Chan × Multipart)} {q : Multipart} {c : Chan} {w w' : World σ}
    (hL : Chronicle env env.H h₀ l w.out w.hist) (hp : ParentsOk w) (hc : InInt w.count) (hrun : (dispatch env I q c).run w = (.ok (), w')) :
    Chronicle env env.H h₀ (l ++ [(c, q)]) w'.out w'.hist := by
  obtain ⟨blk, h', h1, h2, h3⟩ := ledger_snoc hs Ledger.nil hp hc hrun
  rw [h1, h2]
  rcases ledger_one h3 rfl with ⟨m, e, ha, hb, hst, hr, he⟩ | ⟨m, ha, hb, hst, he⟩ | ⟨hr, h4, h5⟩
  · simp only [List.nil_append] at he hb hr
    subst he
    exact .stored c q m blk e hL ha hb hst hr
  · simp only [List.nil_append] at he hb hst
    subst he
    rw [List.append_nil]
    by_cases hr : IsReq m .history
    · obtain ⟨g1, g2, g3⟩ := history_handled hs I c ha w hr
      have done : ∀ {evs : List Ev}, Handled env m c w evs ((dispatch env I q c).run w) →
          (∀ b i, IsStatus env c "busy" m.body.header b → IsStatus env c "idle" m.body.header i →
            Chronicle env env.H h₀ (l ++ [(c, q)]) (w.out ++ ([b] ++ evs ++ [i])) w.hist) →
          Chronicle env env.H h₀ (l ++ [(c, q)]) (w.out ++ blk) w.hist := by
        intro evs ht k
        obtain ⟨b, i, k1, k2, k3⟩ := ht.out
        rw [hrun] at k3
        rw [← h1, show w'.out = _ from k3]
        exact k b i k1 k2
      rcases request_cases env.H w.hist m.body.content with ⟨Q, hQ, hq⟩ | ⟨hn, hq⟩ | ⟨hb', hq⟩
      · cases hj : Q.ask env.H w.hist with
        | ok j =>
          by_cases hu : env.eh = .strict → JsonUtf8 j
          · obtain ⟨rep, k1, k2⟩ := g1 j (hq.trans hj) ⟨hM _ _ _ hj, hu⟩
            exact done k2 fun b i hb hi => .answered c q m Q j b rep i hL ha hr hQ hj hu hb k1 hi
          · have hu' : env.eh = .strict ∧ ¬ JsonUtf8 j := by
              by_cases he : env.eh = .strict
              · exact ⟨he, fun hj => hu fun _ => hj⟩
              · exact absurd (fun h => absurd h he) hu
            exact done (g2 j (hq.trans hj) hu'.1 hu'.2) fun b i hb hi =>
              .unanswered c q m b i hL ha hr (.inr ⟨Q, hQ, .inr ⟨j, hj, hu'⟩⟩) hb hi
        | exc e =>
          exact done (g3 e (hq.trans hj)) fun b i hb hi => .unanswered c q m b i hL ha hr (.inr ⟨Q, hQ, .inl ⟨e, hj⟩⟩) hb hi
        | ub s =>
          obtain ⟨w'', h⟩ := history_ub hs I c ha w hr (hq.trans hj)
          rw [hrun] at h
          cases h
        | hang =>
          obtain ⟨w'', h⟩ := history_hang hs I c ha w hr (hq.trans hj)
          rw [hrun] at h
          cases h
      · obtain ⟨rep, k1, k2⟩ := g1 .null hq ⟨by decide, fun _ => .null⟩
        exact done k2 fun b i hb hi => .nothing c q m b rep i hL ha hr hn hb k1 hi
      · rcases hq with ⟨e, hq⟩ | ⟨_, s, hq⟩
        · exact done (g3 e hq) fun b i hb hi => .unanswered c q m b i hL ha hr (.inl hb') hb hi
        · obtain ⟨w'', h⟩ := history_ub hs I c ha w hr hq
          rw [hrun] at h
          cases h
    · exact .other c q m blk hL ha hr hb hst
  · simp only [List.nil_append] at h4 h5
    subst h4 h5
    simpa using hL.refused c q hr

theorem serial_chronicle (hs : Sane env) (hM : ProperManager env.H) {st : Start σ} {l : List (Chan × Multipart)} {as : List Multipart} {w : World σ}
    (h : Serial env I st l as w) : Chronicle env env.H st.w.hist l w.out w.hist := by
  induction h with
  | start => rw [st.out]; exact .nil
  | arrive A B _ ih => exact ih
  | @shell l as w w' q r hb _ _ hrun ih =>
    obtain ⟨n, hn⟩ := C17_tally_exists env (l.map fun x => (x.2, x.1))
    obtain ⟨i1, i2, _⟩ := serial_count hs hb n hn
    exact chronicle_snoc (w := { w with shellQ := r }) hs hM ih (show ParentsOk w from serial_parents hs hb)
      (show InInt w.count by rw [i2]; exact i1) hrun
  | @control l as w w' q hb _ hrun ih =>
    obtain ⟨n, hn⟩ := C17_tally_exists env (l.map fun x => (x.2, x.1))
    obtain ⟨i1, i2, _⟩ := serial_count hs hb n hn
    exact chronicle_snoc hs hM ih (serial_parents hs hb) (show InInt w.count by rw [i2]; exact i1) hrun

end Xeus
