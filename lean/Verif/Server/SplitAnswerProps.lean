import Verif.Server.SplitAnswers

/-!
# Replies of the split servers: the properties
-/

namespace Xeus

open Spec K

variable {σ : Type}

/-- C80 for the split servers: in every execution that is fair to the two threads in which no handler fails, every request that
arrives on the shell socket, whose fields have the documented types and for which the interpreter returns only what can be sent,
is eventually answered exactly once, aborted, or abandoned because user code throws an exception, unless the shell thread ends
before it is received. -/
theorem C80_shell (env : Env) (hs : Sane env) (I : Interp σ) (st : Start σ) (e : Execution (Split.Step env I))
    (h0 : e.state 0 = Split.init st) (hfs : Fair e .shell) (hfc : Fair e .control) (n k : Nat) (q : Multipart)
    (hq : (arrivedOn .shell (e.state n).log)[k]? = some q)
    (hh : ∀ i, n ≤ i → ∀ t r, (e.state i).c.prog t = .done r → r = .ok ()) (m : XMessage)
    (ha : Accepted env.C env.J env.auth q m) (r : Req) (hr : IsReq m r) (hob : ∀ i, Obliging env I m (e.state i).c.w r) :
    ∃ i, n ≤ i ∧ (AnsweredBy env (e.state i).log .shell k q m r ∨ AbortedBy env (e.state i).log k q m ∨
      ((e.state i).spc = .over ∧ (takenFrom .shell (e.state i).log).length ≤ k)) := by
  have hfair : ∀ t, Fair e (Split.reader t) := fun t => by cases t <;> assumption
  have hrun := Split.run_exec e h0 (fun w => Obliging env I m w r) hob
  have taken : ∀ i, n ≤ i → (takenFrom .shell (e.state i).log)[k]? = some q → ∃ j, n ≤ j ∧
      (AnsweredBy env (e.state j).log .shell k q m r ∨ AbortedBy env (e.state j).log k q m) := by
    intro i hi hk
    obtain ⟨l₀, l, h1, h2⟩ := takenFrom_split hk
    subst h1
    rcases h2 with h2 | ⟨c, h2⟩
    · obtain ⟨j, hj, hfree⟩ := Split.free_again e .shell (hfair _) i fun x hx => hh x (Nat.le_trans hi hx)
      obtain ⟨x, hx⟩ := Split.log_exec e hj
      refine ⟨j, Nat.le_trans hi hj, .inl ?_⟩
      exact Split.handled_answered hs (Split.reach_exec e h0 j) (hrun j) hfree
        (l := l ++ x) (by rw [← hx, h2]; simp) ha hr
    · obtain ⟨j, hj, hfree⟩ := Split.free_again e c (hfair _) i fun x hx => hh x (Nat.le_trans hi hx)
      obtain ⟨x, hx⟩ := Split.log_exec e hj
      refine ⟨j, Nat.le_trans hi hj, .inr ?_⟩
      exact Split.drained_answered hs (Split.reach_exec e h0 j) hfree
        (l := l ++ x) (by rw [← hx, h2]; simp) ha
  obtain ⟨i, hi, hi' | hi'⟩ := C77_split_shell env I st e h0 hfs n k q hq hh
  · obtain ⟨j, hj, h⟩ := taken i hi hi'
    exact ⟨j, hj, h.elim .inl fun h => .inr (.inl h)⟩
  · by_cases hlt : k < (takenFrom .shell (e.state i).log).length
    · have h1 := (C51_order env I st _ (Split.reach_exec e h0 i)).2
      obtain ⟨x, hx⟩ := Split.log_exec e hi
      rw [← hx, arrivedOn_append] at h1
      have h2 : (takenFrom .shell (e.state i).log ++ (e.state i).c.w.shellQ)[k]? = some q := by
        obtain ⟨hk', _⟩ := List.getElem?_eq_some_iff.1 hq
        rw [← hx, h1, List.getElem?_append_left hk']; exact hq
      rw [List.getElem?_append_left hlt] at h2
      obtain ⟨j, hj, h⟩ := taken i hi h2
      exact ⟨j, hj, h.elim .inl fun h => .inr (.inl h)⟩
    · exact ⟨i, hi, .inr (.inr ⟨hi', Nat.not_lt.1 hlt⟩)⟩

/-- C80 for the split servers: the same for the control socket, until a stop is requested.  Control messages are never
aborted. -/
theorem C80_control (env : Env) (hs : Sane env) (I : Interp σ) (st : Start σ) (e : Execution (Split.Step env I))
    (h0 : e.state 0 = Split.init st) (hf : Fair e .control) (n k : Nat) (q : Multipart)
    (hq : (arrivedOn .control (e.state n).log)[k]? = some q)
    (hh : ∀ i, n ≤ i → ∀ t r, (e.state i).c.prog t = .done r → r = .ok ()) (m : XMessage)
    (ha : Accepted env.C env.J env.auth q m) (r : Req) (hr : IsReq m r) (hob : ∀ i, Obliging env I m (e.state i).c.w r) :
    ∃ i, n ≤ i ∧ (AnsweredBy env (e.state i).log .control k q m r ∨
      ((e.state i).flag = true ∧ (e.state i).kpc ≠ .entry ∧ (takenFrom .control (e.state i).log).length ≤ k)) := by
  have hrun := Split.run_exec e h0 (fun w => Obliging env I m w r) hob
  have taken : ∀ i, n ≤ i → (takenFrom .control (e.state i).log)[k]? = some q → ∃ j, n ≤ j ∧
      AnsweredBy env (e.state j).log .control k q m r := by
    intro i hi hk
    obtain ⟨l₀, l, h1, h2⟩ := takenFrom_split_control hk
    subst h1
    obtain ⟨j, hj, hfree⟩ := Split.free_again e .control hf i fun x hx => hh x (Nat.le_trans hi hx)
    obtain ⟨x, hx⟩ := Split.log_exec e hj
    refine ⟨j, Nat.le_trans hi hj, ?_⟩
    exact Split.handled_answered hs (Split.reach_exec e h0 j) (hrun j) hfree
      (l := l ++ x) (by rw [← hx, h2]; simp) ha hr
  obtain ⟨i, hi, hi' | hi'⟩ := C77_split_control env I st e h0 hf n k q hq hh
  · obtain ⟨j, hj, h⟩ := taken i hi hi'
    exact ⟨j, hj, .inl h⟩
  · by_cases hlt : k < (takenFrom .control (e.state i).log).length
    · have h1 := (C51_order env I st _ (Split.reach_exec e h0 i)).1
      obtain ⟨x, hx⟩ := Split.log_exec e hi
      rw [← hx, arrivedOn_append] at h1
      have h2 : (takenFrom .control (e.state i).log ++ (e.state i).c.controlQ)[k]? = some q := by
        obtain ⟨hk', _⟩ := List.getElem?_eq_some_iff.1 hq
        rw [← hx, h1, List.getElem?_append_left hk']; exact hq
      rw [List.getElem?_append_left hlt] at h2
      obtain ⟨j, hj, h⟩ := taken i hi h2
      exact ⟨j, hj, .inl h⟩
    · exact ⟨i, hi, .inr ⟨hi'.1, hi'.2, Nat.not_lt.1 hlt⟩⟩

/-! ### Examples -/

theorem kernelInfo_obliging (m : XMessage) (w : World Nat) : Obliging sampleEnv sampleInterp m w .kernelInfo :=
  ⟨.inl rfl, by decide, fun _ => (jsonUtf8_iff _).2 (by decide +kernel)⟩

/-- The second of two shell messages, when both have just arrived; it will be answered. -/
example : ∃ (e : Execution (Split.Step sampleEnv sampleInterp)) (q : Multipart) (m : XMessage), e.state 0 = Split.init 0 ∧
    Fair e .shell ∧ Fair e .control ∧ (arrivedOn .shell (e.state 3).log)[1]? = some q ∧
    (∀ i, 3 ≤ i → ∀ t r, (e.state i).c.prog t = .done r → r = .ok ()) ∧
    Accepted sampleEnv.C sampleEnv.J sampleEnv.auth q m ∧ IsReq m .kernelInfo ∧
    (∀ i, Obliging sampleEnv sampleInterp m (e.state i).c.w .kernelInfo) ∧
    takenFrom .shell (e.state 3).log = [] ∧ ∃ i, AnsweredBy sampleEnv (e.state i).log .shell 1 q m .kernelInfo := by
  obtain ⟨e, h1, h2, h3, _⟩ := Split.day_exec
  have ha : Accepted sampleEnv.C sampleEnv.J sampleEnv.auth (wireOf (reqFrom "a" "m2" "kernel_info_request" (.obj [])))
    (reqFrom "a" "m2" "kernel_info_request" (.obj [])) := sample_accepted (by decide +kernel)
  have hN : e.state Split.dayTurns.length = Split.day := by rw [h1, List.take_of_length_le (Nat.le_refl _)]; rfl
  refine ⟨e, _, _, h1 0, h2 _ (by simp), h2 _ (by simp), by rw [h1]; decide +kernel, fun m _ => h3 m, ha, rfl,
    fun _ => kernelInfo_obliging _ _, by rw [h1]; decide +kernel, Split.dayTurns.length, ?_⟩
  obtain ⟨l₀, l, g1, g2 | ⟨c, g2⟩⟩ := takenFrom_split (log := (e.state Split.dayTurns.length).log) (k := 1)
    (q := wireOf (reqFrom "a" "m2" "kernel_info_request" (.obj []))) (by rw [hN]; decide +kernel)
  · rw [← g1]
    refine Split.handled_answered sampleEnv_sane (Split.reach_exec e (h1 0) _)
      (Split.run_exec e (h1 0) _ (fun _ => kernelInfo_obliging _ _) _) ?_ g2 ha rfl
    rw [hN]
    have : Split.day.spc = .over := by decide +kernel
    intro r hr
    rw [this] at hr
    cases hr
  · exfalso
    have : (Split.day.log.all fun x => match x with | .act (.drained _ _) => false | _ => true) = true := by decide +kernel
    rw [hN] at g2
    have := List.all_eq_true.1 this _ (by rw [g2]; exact List.mem_append_right _ List.mem_cons_self)
    cases this

/-- The first control message, when it has just arrived. -/
example : ∃ (e : Execution (Split.Step sampleEnv sampleInterp)) (q : Multipart) (m : XMessage), e.state 0 = Split.init 0 ∧
    Fair e .control ∧ (arrivedOn .control (e.state 3).log)[0]? = some q ∧
    (∀ i, 3 ≤ i → ∀ t r, (e.state i).c.prog t = .done r → r = .ok ()) ∧
    Accepted sampleEnv.C sampleEnv.J sampleEnv.auth q m ∧ IsReq m .kernelInfo ∧
    (∀ i, Obliging sampleEnv sampleInterp m (e.state i).c.w .kernelInfo) ∧ takenFrom .control (e.state 3).log = [] := by
  obtain ⟨e, h1, h2, h3, _⟩ := Split.day_exec
  exact ⟨e, wireOf (reqFrom "b" "m3" "kernel_info_request" (.obj [])), reqFrom "b" "m3" "kernel_info_request" (.obj []), h1 0,
    h2 _ (by simp), by rw [h1]; decide +kernel, fun m _ => h3 m, sample_accepted (by decide +kernel), rfl,
    fun _ => kernelInfo_obliging _ _, by rw [h1]; decide +kernel⟩

end Xeus
