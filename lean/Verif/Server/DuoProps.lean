import Verif.Server.DuoSample
import Verif.Server.SplitAnswerProps

/-!
# The split servers with requests from the control thread to the shell thread: the properties
-/

namespace Xeus

open Spec K

variable {σ : Type}

/-! ## C81: what the servers do -/

/-- C81: the split servers do what they would do if the control thread performed the internal requests of the debugger itself,
as `Split` describes: every state they can reach corresponds to one of `Split` in which the same things have happened in the
same order (the exchanges between the threads apart). -/
theorem C81_refines (env : Env) (hs : Sane env) (I : Interp σ) (hd : SendsValues I) (st : Start σ) (s : Duo σ)
    (h : Duo.Reach env I st s) :
    ∃ t : Split σ, Split.Reach env I st t ∧ t.log = served s.log ∧ t.c.w = s.w ∧ t.c.controlQ = s.controlQ ∧ t.kpc = s.kpc ∧
      t.flag = s.flag ∧ t.stopped = s.stopped ∧ t.pub = s.pub ∧ t.hb = s.hb ∧ (t.spc = .over ↔ s.spc = .over) := by
  refine ⟨Duo.abs env I s, Duo.abs_reach (sound_of hs hd) h, (served_eq _).symm, rfl, rfl, rfl, rfl, rfl, rfl, rfl, ?_⟩
  show s.spcOf = .over ↔ _
  unfold Duo.spcOf
  split <;> simp_all

example : SendsValues askInterp ∧ Duo.Reach sampleEnv askInterp 0 Duo.day ∧ (exchanges Duo.day.log).length = 8 ∧
    (served Duo.day.log).length + 8 = Duo.day.log.length :=
  ⟨askInterp_sends, Duo.reach_choose _, by decide +kernel, by decide +kernel⟩

/-- C81: messages are received in the order of their arrival. -/
theorem C81_order (env : Env) (hs : Sane env) (I : Interp σ) (hd : SendsValues I) (st : Start σ) (s : Duo σ) (h : Duo.Reach env I st s) :
    takenFrom .control (served s.log) ++ s.controlQ = arrivedOn .control (served s.log) ∧
    takenFrom .shell (served s.log) ++ s.w.shellQ = arrivedOn .shell (served s.log) := by
  rw [served_eq]
  exact C51_order env I st _ (Duo.abs_reach (sound_of hs hd) h)

example : Duo.Reach sampleEnv askInterp 0 Duo.day ∧ (takenFrom .control (served Duo.day.log)).length = 3 ∧
    (takenFrom .shell (served Duo.day.log)).length = 2 := ⟨Duo.reach_choose _, by decide +kernel, by decide +kernel⟩

/-! ## C81: the exchanges -/

/-- C81: the exchanges between the two threads are complete rounds, one after the other, and possibly the beginning of another:
the control thread sends a request, the shell thread receives it, sends the result, and the control thread receives that. -/
theorem C81_rounds (env : Env) (hs : Sane env) (I : Interp σ) (hd : SendsValues I) (st : Start σ) (s : Duo σ) (h : Duo.Reach env I st s) :
    ∃ (xs : List (Frame × Frame)) (x : Frame × Frame) (n : Nat), n < 4 ∧
      exchanges s.log = xs.flatMap round ++ (round x).take n := by
  obtain ⟨xs, hx⟩ := (Duo.trace_reach (sound_of hs hd) h).rounds
  rw [hx]
  unfold Duo.phase
  split
  · split
    · rename_i t k _
      split
      · split
        · rename_i r _; exact ⟨xs, (t, r), 3, by decide, rfl⟩
        · exact ⟨xs, (t, []), 1, by decide, rfl⟩
      · exact ⟨xs, (t, []), 2, by decide, rfl⟩
    · exact ⟨xs, ([], []), 0, by decide, rfl⟩
  · exact ⟨xs, ([], []), 0, by decide, rfl⟩

/-- Two rounds. -/
example : Duo.Reach sampleEnv askInterp 0 Duo.day ∧ exchanges Duo.day.log =
    [(lit "{\"command\":\"inspect\"}", lit "{\"command\":\"inspect\"}"), (lit "{}", lit "{}")].flatMap round :=
  ⟨Duo.reach_choose _, by decide +kernel⟩

/-- C81: while the shell thread performs a request it does nothing else. -/
theorem C81_shell_alone (env : Env) (hs : Sane env) (I : Interp σ) (hd : SendsValues I) (st : Start σ) (s : Duo σ)
    (h : Duo.Reach env I st s) (a b : List DEv) (t : Frame) (hl : s.log = a ++ .began t :: b) (hb : ∀ r, .ended r ∉ b) :
    ∀ e ∈ b, byThread .shell e = false := by
  refine ((Duo.trace_reach (sound_of hs hd) h).serving a _ b hl rfl fun y hy => ?_).2
  cases y <;> first | rfl | exact absurd hy (hb _)

example : ∃ a b t, Duo.Reach sampleEnv askInterp 0 Duo.serving ∧ Duo.serving.log = a ++ .began t :: b ∧ (∀ x, .ended x ∉ b) ∧
    b.countP (byThread .control) = 1 := by
  refine ⟨Duo.serving.log.take 19, Duo.serving.log.drop 20, lit "{\"command\":\"inspect\"}", Duo.reach_choose _, by decide +kernel, fun x hx => ?_, by decide +kernel⟩
  have : (Duo.serving.log.drop 20).all (fun e => match e with | .ended _ => false | _ => true) = true := by decide +kernel
  have := List.all_eq_true.1 this _ hx
  cases this

/-- C81: after sending a request the control thread does nothing until the shell thread receives it. -/
theorem C81_control_sent (env : Env) (hs : Sane env) (I : Interp σ) (hd : SendsValues I) (st : Start σ) (s : Duo σ)
    (h : Duo.Reach env I st s) (a b : List DEv) (t : Frame) (hl : s.log = a ++ .asked t :: b) (hb : ∀ t, .began t ∉ b) :
    ∀ e ∈ b, byThread .control e = false := by
  refine ((Duo.trace_reach (sound_of hs hd) h).sent a _ b hl rfl fun y hy => ?_).2
  cases y <;> first | rfl | exact absurd hy (hb _)

example : ∃ a b t, Duo.Reach sampleEnv askInterp 0 Duo.sent ∧ Duo.sent.log = a ++ .asked t :: b ∧ (∀ x, .began x ∉ b) ∧
    b.countP (byThread .shell) = 7 := by
  refine ⟨Duo.sent.log.take 11, Duo.sent.log.drop 12, lit "{\"command\":\"inspect\"}", Duo.reach_choose _, by decide +kernel, fun x hx => ?_, by decide +kernel⟩
  have : (Duo.sent.log.drop 12).all (fun e => match e with | .began _ => false | _ => true) = true := by decide +kernel
  have := List.all_eq_true.1 this _ hx
  cases this

/-- C81: when the shell thread has sent the result the control thread does nothing before it receives that. -/
theorem C81_control_replied (env : Env) (hs : Sane env) (I : Interp σ) (hd : SendsValues I) (st : Start σ) (s : Duo σ)
    (h : Duo.Reach env I st s) (a b : List DEv) (r : Frame) (hl : s.log = a ++ .ended r :: b) (hb : ∀ r, .got r ∉ b) :
    ∀ e ∈ b, byThread .control e = false := by
  refine ((Duo.trace_reach (sound_of hs hd) h).replied a _ b hl rfl fun y hy => ?_).2
  cases y <;> first | rfl | exact absurd hy (hb _)

example : ∃ a b t, Duo.Reach sampleEnv askInterp 0 Duo.replied ∧ Duo.replied.log = a ++ .ended t :: b ∧ (∀ x, .got x ∉ b) ∧
    b.countP (byThread .shell) = 1 := by
  refine ⟨Duo.replied.log.take 21, Duo.replied.log.drop 22, lit "{\"command\":\"inspect\"}", Duo.reach_choose _, by decide +kernel, fun x hx => ?_, by decide +kernel⟩
  have : (Duo.replied.log.drop 22).all (fun e => match e with | .got _ => false | _ => true) = true := by decide +kernel
  have := List.all_eq_true.1 this _ hx
  cases this

/-- C81: so whatever is performed in the name of the control thread while the shell thread performs a request is that
request. -/
theorem C81_waits (env : Env) (hs : Sane env) (I : Interp σ) (hd : SendsValues I) (st : Start σ) (s s' : Duo σ)
    (h : Duo.Reach env I st s) (hc : s.calling = true) (hr : s.rep = none) :
    ¬ Duo.Step env I .control s s' ∧ s.kpc = .busy := by
  have hi := Duo.inv_reach (sound_of hs hd) h
  refine ⟨fun hs' => ?_, ?_⟩
  · cases hi.link with
    | quiet h1 => rw [hc] at h1; cases h1
    | _ => first
      | (rename_i h1 _ _ _ _; rw [hc] at h1; cases h1)
      | (cases hs' <;> simp_all [A.step])
  · cases hi.link <;> simp_all

/-- A debug request waits while the shell thread handles a message. -/
example : ∃ n, let s := (Duo.dayTurns.take n).foldl (Duo.choose sampleEnv askInterp) (Duo.init 0)
    Duo.Reach sampleEnv askInterp 0 s ∧ s.calling = true ∧ s.rep = none ∧ s.cmd ≠ none ∧ s.spc = .busy false :=
  ⟨40, Duo.reach_choose _, by decide +kernel⟩

/-! ## C81: every request is answered -/

/-- C81: in every execution that is fair to the two threads in which no handler fails and the control thread aborts no shell
message, every internal request is received, performed and answered, and the control thread receives the answer. -/
theorem C81_answered (env : Env) (hs : Sane env) (I : Interp σ) (hd : SendsValues I) (st : Start σ) (e : Execution (Duo.Step env I))
    (h0 : e.state 0 = Duo.init st) (hfc : Fair e .control) (hfs : Fair e .shell) (n : Nat) (a b : List DEv) (t : Frame)
    (hl : exchanges (e.state n).log = a ++ .asked t :: b) (hw : ∀ m, n ≤ m → Well (e.state m))
    (hu : ∀ m, n ≤ m → Undrained (e.state m)) :
    ∃ m r b', n ≤ m ∧ exchanges (e.state m).log = a ++ [.asked t, .began t, .ended r, .got r] ++ b' := by
  have hso := sound_of hs hd
  obtain ⟨m, hm, hk⟩ := Duo.free_control hso e h0 hfc hfs n hw hu
  have hr := Duo.reach_exec e h0 m
  obtain ⟨xs, hx⟩ := (Duo.trace_reach hso hr).rounds
  rw [Duo.phase_idle (Duo.not_calling (Duo.inv_reach hso hr) hk), List.append_nil] at hx
  obtain ⟨c, hc⟩ := Duo.log_exec e hm
  have he : exchanges (e.state m).log = a ++ .asked t :: (b ++ exchanges c) := by
    rw [← hc, exchanges_append, hl]; simp
  obtain ⟨r, v, hv⟩ := Duo.round_answer (hx.symm.trans he)
  refine ⟨m, r, v, hm, ?_⟩
  rw [he, hv]; simp

example : ∃ (e : Execution (Duo.Step sampleEnv askInterp)) (n : Nat), e.state 0 = Duo.init 0 ∧ Fair e .control ∧ Fair e .shell ∧
    exchanges (e.state n).log = [.asked (lit "{\"command\":\"inspect\"}")] ∧
    (∀ m, n ≤ m → Well (e.state m)) ∧ ∀ m, n ≤ m → Undrained (e.state m) := by
  obtain ⟨e, h1, h2, h3, h4⟩ := Duo.day_exec
  exact ⟨e, 40, h1 0, h2 _ (by simp), h2 _ (by simp), by rw [h1]; decide +kernel, fun m _ => h3 m, fun m _ => h4 m⟩

theorem Duo.free_abs {env : Env} {I : Interp σ} {s : Duo σ} (h : ∀ r, s.spc ≠ .busy r) : Split.Free (Duo.abs env I s) .shell := by
  intro r hr
  have hr : s.spcOf = .busy r := hr
  unfold Duo.spcOf at hr
  split at hr
  · cases hr
  · cases hr
  · cases hr
  · cases hr
  · exact h _ ‹_›
  · exact h _ hr

/-- C81 (as C80): in every such execution every request that arrives on the shell socket, whose fields have the documented types
and for which the interpreter returns only what can be sent, is eventually answered exactly once, aborted, or abandoned because
user code throws an exception, unless the shell thread ends before it is received. -/
theorem C81_shell (env : Env) (hs : Sane env) (I : Interp σ) (hd : SendsValues I) (st : Start σ) (e : Execution (Duo.Step env I))
    (h0 : e.state 0 = Duo.init st) (hfc : Fair e .control) (hfs : Fair e .shell) (n k : Nat) (q : Multipart)
    (hq : (arrivedOn .shell (served (e.state n).log))[k]? = some q) (hw : ∀ m, n ≤ m → Well (e.state m))
    (hu : ∀ m, n ≤ m → Undrained (e.state m)) (m : XMessage)
    (ha : Accepted env.C env.J env.auth q m) (r : Req) (hr : IsReq m r) (hob : ∀ i, Obliging env I m (e.state i).w r) :
    ∃ i, n ≤ i ∧ (AnsweredBy env (served (e.state i).log) .shell k q m r ∨ AbortedBy env (served (e.state i).log) k q m ∨
      ((e.state i).spc = .over ∧ (takenFrom .shell (served (e.state i).log)).length ≤ k)) := by
  have hso := sound_of hs hd
  simp only [served_eq] at hq ⊢
  have hrun := Duo.conc_exec hso e h0 (fun w => Obliging env I m w r) hob
  have hre := fun i => Duo.abs_reach hso (Duo.reach_exec e h0 i)
  have taken : ∀ i, n ≤ i → (takenFrom .shell (evsOf (e.state i).log))[k]? = some q → ∃ j, n ≤ j ∧
      (AnsweredBy env (evsOf (e.state j).log) .shell k q m r ∨ AbortedBy env (evsOf (e.state j).log) k q m) := by
    intro i hi hk
    obtain ⟨l₀, l, h1, h2⟩ := takenFrom_split hk
    subst h1
    rcases h2 with h2 | ⟨c, h2⟩
    · obtain ⟨j, hj, hfree⟩ := Duo.free_shell e hfs i fun x hx => hw x (Nat.le_trans hi hx)
      obtain ⟨x, hx⟩ := Duo.evs_prefix (Duo.log_exec e hj)
      refine ⟨j, Nat.le_trans hi hj, .inl ?_⟩
      exact Split.handled_answered hs (hre j) (hrun j) (Duo.free_abs hfree)
        (l := l ++ x) (by show evsOf _ = _; rw [← hx, h2]; simp) ha hr
    · have hfree : ∃ j, i ≤ j ∧ Split.Free (Duo.abs env I (e.state j)) c := by
        cases c with
        | shell =>
          obtain ⟨j, hj, hfree⟩ := Duo.free_shell e hfs i fun x hx => hw x (Nat.le_trans hi hx)
          exact ⟨j, hj, Duo.free_abs hfree⟩
        | control =>
          exact Duo.free_control hso e h0 hfc hfs i (fun x hx => hw x (Nat.le_trans hi hx)) fun x hx => hu x (Nat.le_trans hi hx)
      obtain ⟨j, hj, hfree⟩ := hfree
      obtain ⟨x, hx⟩ := Duo.evs_prefix (Duo.log_exec e hj)
      refine ⟨j, Nat.le_trans hi hj, .inr ?_⟩
      exact Split.drained_answered hs (hre j) hfree
        (l := l ++ x) (by show evsOf _ = _; rw [← hx, h2]; simp) ha
  have order : ∀ i, n ≤ i → k < (takenFrom .shell (evsOf (e.state i).log)).length →
      (takenFrom .shell (evsOf (e.state i).log))[k]? = some q := by
    intro i hi hlt
    have h1 := (C51_order env I st _ (hre i)).2
    obtain ⟨x, hx⟩ := Duo.evs_prefix (Duo.log_exec e hi)
    have h2 : (takenFrom .shell (evsOf (e.state i).log) ++ (e.state i).w.shellQ)[k]? = some q := by
      obtain ⟨hk', _⟩ := List.getElem?_eq_some_iff.1 hq
      refine (congrArg (·[k]?) h1).trans ?_
      show (arrivedOn .shell (evsOf (e.state i).log))[k]? = some q
      rw [← hx, arrivedOn_append, List.getElem?_append_left hk']; exact hq
    rwa [List.getElem?_append_left hlt] at h2
  obtain ⟨hk, _⟩ := List.getElem?_eq_some_iff.1 hq
  obtain ⟨i, hi, hi' | hi'⟩ := Duo.serves_shell hso e h0 hfs n k hk hw
  · obtain ⟨j, hj, h⟩ := taken i hi (order i hi hi')
    exact ⟨j, hj, h.elim .inl fun h => .inr (.inl h)⟩
  · by_cases hlt : k < (takenFrom .shell (evsOf (e.state i).log)).length
    · obtain ⟨j, hj, h⟩ := taken i hi (order i hi hlt)
      exact ⟨j, hj, h.elim .inl fun h => .inr (.inl h)⟩
    · exact ⟨i, hi, .inr (.inr ⟨hi', Nat.not_lt.1 hlt⟩)⟩

/-- C81 (as C80): the same for the control socket, until a stop is requested.  So a debug request is answered exactly once,
however the debugger uses the shell thread. -/
theorem C81_control (env : Env) (hs : Sane env) (I : Interp σ) (hd : SendsValues I) (st : Start σ) (e : Execution (Duo.Step env I))
    (h0 : e.state 0 = Duo.init st) (hfc : Fair e .control) (hfs : Fair e .shell) (n k : Nat) (q : Multipart)
    (hq : (arrivedOn .control (served (e.state n).log))[k]? = some q) (hw : ∀ m, n ≤ m → Well (e.state m))
    (hu : ∀ m, n ≤ m → Undrained (e.state m)) (m : XMessage)
    (ha : Accepted env.C env.J env.auth q m) (r : Req) (hr : IsReq m r) (hob : ∀ i, Obliging env I m (e.state i).w r) :
    ∃ i, n ≤ i ∧ (AnsweredBy env (served (e.state i).log) .control k q m r ∨
      ((e.state i).flag = true ∧ (e.state i).kpc ≠ .entry ∧ (takenFrom .control (served (e.state i).log)).length ≤ k)) := by
  have hso := sound_of hs hd
  simp only [served_eq] at hq ⊢
  have hrun := Duo.conc_exec hso e h0 (fun w => Obliging env I m w r) hob
  have hre := fun i => Duo.abs_reach hso (Duo.reach_exec e h0 i)
  have taken : ∀ i, n ≤ i → k < (takenFrom .control (evsOf (e.state i).log)).length → ∃ j, n ≤ j ∧
      AnsweredBy env (evsOf (e.state j).log) .control k q m r := by
    intro i hi hlt
    have hk : (takenFrom .control (evsOf (e.state i).log))[k]? = some q := by
      have h1 := (C51_order env I st _ (hre i)).1
      obtain ⟨x, hx⟩ := Duo.evs_prefix (Duo.log_exec e hi)
      have h2 : (takenFrom .control (evsOf (e.state i).log) ++ (e.state i).controlQ)[k]? = some q := by
        obtain ⟨hk', _⟩ := List.getElem?_eq_some_iff.1 hq
        refine (congrArg (·[k]?) h1).trans ?_
        show (arrivedOn .control (evsOf (e.state i).log))[k]? = some q
        rw [← hx, arrivedOn_append, List.getElem?_append_left hk']; exact hq
      rwa [List.getElem?_append_left hlt] at h2
    obtain ⟨l₀, l, h1, h2⟩ := takenFrom_split_control hk
    subst h1
    obtain ⟨j, hj, hfree⟩ := Duo.free_control hso e h0 hfc hfs i (fun x hx => hw x (Nat.le_trans hi hx))
      fun x hx => hu x (Nat.le_trans hi hx)
    obtain ⟨x, hx⟩ := Duo.evs_prefix (Duo.log_exec e hj)
    refine ⟨j, Nat.le_trans hi hj, ?_⟩
    exact Split.handled_answered hs (hre j) (hrun j) (t := .control) hfree
      (l := l ++ x) (by show evsOf _ = _; rw [← hx, h2]; simp) ha hr
  obtain ⟨hk, _⟩ := List.getElem?_eq_some_iff.1 hq
  obtain ⟨i, hi, hi' | hi'⟩ := Duo.serves_control hso e h0 hfc hfs n k hk hw hu
  · obtain ⟨j, hj, h⟩ := taken i hi hi'
    exact ⟨j, hj, .inl h⟩
  · by_cases hlt : k < (takenFrom .control (evsOf (e.state i).log)).length
    · obtain ⟨j, hj, h⟩ := taken i hi hlt
      exact ⟨j, hj, .inl h⟩
    · exact ⟨i, hi, .inr ⟨hi'.1, hi'.2, Nat.not_lt.1 hlt⟩⟩

/-- A debug request, which the debugger passes to the shell thread, when it has just arrived. -/
example : ∃ (e : Execution (Duo.Step sampleEnv askInterp)) (q : Multipart) (m : XMessage), e.state 0 = Duo.init 0 ∧
    Fair e .control ∧ Fair e .shell ∧ (arrivedOn .control (served (e.state 4).log))[0]? = some q ∧
    (∀ m, 4 ≤ m → Well (e.state m)) ∧ (∀ m, 4 ≤ m → Undrained (e.state m)) ∧
    Accepted sampleEnv.C sampleEnv.J sampleEnv.auth q m ∧ IsReq m .debug ∧
    (∀ i, Obliging sampleEnv askInterp m (e.state i).w .debug) ∧ takenFrom .control (served (e.state 4).log) = [] := by
  obtain ⟨e, h1, h2, h3, h4⟩ := Duo.day_exec
  refine ⟨e, wireOf (reqFrom "b" "m3" "debug_request" (.obj [(lit "command", .str (lit "inspect"))])),
    reqFrom "b" "m3" "debug_request" (.obj [(lit "command", .str (lit "inspect"))]), h1 0,
    h2 _ (by simp), h2 _ (by simp), by rw [h1]; decide +kernel, fun m _ => h3 m, fun m _ => h4 m,
    sample_accepted (by decide +kernel), rfl, fun i => ?_, by rw [h1]; decide +kernel⟩
  refine ⟨_, rfl, fun r => ?_⟩
  rcases r with e | v
  · trivial
  · show Printable _ _
    refine ⟨by decide, fun _ => (jsonUtf8_iff _).2 (by decide +kernel)⟩

/-- A shell message that arrived just before. -/
example : ∃ (e : Execution (Duo.Step sampleEnv askInterp)) (q : Multipart) (m : XMessage), e.state 0 = Duo.init 0 ∧
    Fair e .control ∧ Fair e .shell ∧ (arrivedOn .shell (served (e.state 4).log))[1]? = some q ∧
    (∀ m, 4 ≤ m → Well (e.state m)) ∧ (∀ m, 4 ≤ m → Undrained (e.state m)) ∧
    Accepted sampleEnv.C sampleEnv.J sampleEnv.auth q m ∧ IsReq m .kernelInfo ∧
    (∀ i, Obliging sampleEnv askInterp m (e.state i).w .kernelInfo) ∧ takenFrom .shell (served (e.state 4).log) = [] := by
  obtain ⟨e, h1, h2, h3, h4⟩ := Duo.day_exec
  exact ⟨e, wireOf (reqFrom "a" "m2" "kernel_info_request" (.obj [])), reqFrom "a" "m2" "kernel_info_request" (.obj []), h1 0,
    h2 _ (by simp), h2 _ (by simp), by rw [h1]; decide +kernel, fun m _ => h3 m, fun m _ => h4 m,
    sample_accepted (by decide +kernel), rfl, fun i => ⟨.inl rfl, by decide, fun _ => (jsonUtf8_iff _).2 (by decide +kernel)⟩, by rw [h1]; decide +kernel⟩

/-- C81 (as C51): after a stop request made while the control thread is running, unless the control thread is waiting in vain for
a message, in every fair execution both servers end, provided that no handler fails and no shell message is aborted by the
control thread. -/
theorem C81_terminates (env : Env) (hs : Sane env) (I : Interp σ) (hd : SendsValues I) (st : Start σ) (e : Execution (Duo.Step env I))
    (h0 : e.state 0 = Duo.init st) (hf : ∀ a, a ≠ SWho.world → Fair e a) (n : Nat) (a b : List SEv) (t : Chan)
    (hl : served (e.state n).log = a ++ .act (.did t .stop) :: b) (hb : t = .shell → SEv.began ∈ a)
    (hq : t = .shell → (e.state n).kpc = .recv → (e.state n).controlQ ≠ [])
    (hw : ∀ m, n ≤ m → Well (e.state m)) (hu : ∀ m, n ≤ m → Undrained (e.state m)) :
    ∃ m, n ≤ m ∧ (e.state m).controlMainExits ∧ (e.state m).shellMainExits := by
  have hso := sound_of hs hd
  rw [served_eq] at hl
  have hr := fun m => Duo.abs_reach hso (Duo.reach_exec e h0 m)
  have hi := Split.stopinv_reach (hr n)
  have hb' : SEv.began ∈ a := by
    cases t with
    | shell => exact hb rfl
    | control => exact hi.did a _ b hl
  obtain ⟨h1, h2⟩ := hi.stop a t b hl hb'
  have hle : Split.Leaving (Duo.abs env I (e.state n)) := by
    refine ⟨h1, fun h => hi.entry.1 h ?_, fun hk => ?_⟩
    · show SEv.began ∈ evsOf _
      rw [hl]; exact List.mem_append_left _ hb'
    · cases t with
      | shell => exact hq rfl hk
      | control =>
        rcases h2 with ⟨_, h⟩ | ⟨_, h, _⟩
        · exact absurd hk (h rfl)
        · cases h
  obtain ⟨m, hm, hk⟩ := Duo.terminates hso e h0 hf n hle hw hu
  have hp := (Split.rinv_reach (hr m)).proto
  unfold Split.Proto at hp
  rw [show (Duo.abs env I (e.state m)).kpc = .over from hk] at hp
  refine ⟨m, hm, hk, ?_, hp.2.2.2.1⟩
  have : (e.state m).spcOf = .over := hp.1.2.2
  rw [Duo.spcOf_idle (Duo.not_calling (Duo.inv_reach hso (Duo.reach_exec e h0 m)) (by rw [hk]; simp))] at this
  exact this

example : ∃ (e : Execution (Duo.Step sampleEnv askInterp)) (n : Nat) (a b : List SEv), e.state 0 = Duo.init 0 ∧
    (∀ a, a ≠ SWho.world → Fair e a) ∧ served (e.state n).log = a ++ .act (.did .control .stop) :: b ∧
    (∀ m, n ≤ m → Well (e.state m)) ∧ ∀ m, n ≤ m → Undrained (e.state m) := by
  obtain ⟨e, h1, h2, h3, h4⟩ := Duo.day_exec
  have hN : e.state Duo.dayTurns.length = Duo.day := by rw [h1, List.take_of_length_le (Nat.le_refl _)]; rfl
  have h : SEv.act (.did .control .stop) ∈ served Duo.day.log := by decide +kernel
  obtain ⟨a, b, hab⟩ := List.append_of_mem h
  exact ⟨e, _, a, b, h1 0, h2, by rw [hN]; exact hab, fun m _ => h3 m, fun m _ => h4 m⟩

/-! ## C81: when the shell thread cannot go on -/

/-- C81: a shell thread that cannot go on takes no further step. -/
theorem C81_halted (env : Env) (I : Interp σ) (a : SWho) (s s' : Duo σ) (h : Halted s) (hs : Duo.Step env I a s s') :
    a ≠ .shell ∧ Halted s' := by
  unfold Halted at *
  rcases h with ⟨r, h1, ⟨e, h2, h3⟩ | ⟨t, k, h2⟩⟩ | ⟨h1, e, h2, h3⟩
  · cases hs <;> simp_all [A.step, Duo.effect]
  · cases hs <;> simp_all [A.step, Duo.effect]
  · cases hs with
    | doneInternal _ r _ hr => rw [h2] at hr; injection hr with hr; injection hr with hr; exact absurd hr (h3 r)
    | _ => simp_all [A.step, K.step, Duo.effect]

/-- C81: while the shell thread cannot go on, a control thread that waits for it goes on waiting: no further control message is
received, a shutdown request neither. -/
theorem C81_blocked (env : Env) (hs : Sane env) (I : Interp σ) (hd : SendsValues I) (st : Start σ) (s s' : Duo σ)
    (hr : Duo.Reach env I st s) (hc : s.calling = true) (hn : s.rep = none) (hh : Halted s) (h : Steps (Duo.Step env I) s s') :
    s'.calling = true ∧ s'.rep = none ∧ s'.kpc = .busy ∧ Halted s' ∧ Duo.Reach env I st s' ∧
      takenFrom .control (served s'.log) = takenFrom .control (served s.log) := by
  induction h with
  | refl => exact ⟨hc, hn, (C81_waits env hs I hd st s s hr hc hn).2, hh, hr, rfl⟩
  | @tail s₁ s₂ a _ hst ih =>
    obtain ⟨h1, h2, h3, h4, h5, h6⟩ := ih
    have ha : a ≠ .control := fun h => by subst h; exact (C81_waits env hs I hd st s₁ s₂ h5 h1 h2).1 hst
    obtain ⟨hb, h7⟩ := C81_halted env I a s₁ s₂ h4 hst
    have h8 := h5.step hst
    rw [← h6]
    cases hst <;> first
      | exact absurd rfl ha
      | exact absurd rfl hb
      | (refine ⟨h1, h2, h3, h7, h8, ?_⟩; simp [served_eq, takenFrom_append, evsOf, takenFrom])

/-- Finding (C81): this happens while code is executed: a debug request that needs the shell thread waits for the code to end,
and every other control message, here a shutdown request, waits behind it. -/
theorem C81_blocked_witness : ∃ s : Duo Nat, SendsValues slowInterp ∧ Duo.Reach sampleEnv slowInterp 0 s ∧ s.calling = true ∧
    s.rep = none ∧ Halted s ∧ s.controlQ = [wireOf (reqFrom "b" "m3" "shutdown_request" (.obj [(lit "restart", .bool false)]))] := by
  refine ⟨Duo.slow, slowInterp_sends, Duo.reach_choose _, by decide +kernel, by decide +kernel, ?_, by decide +kernel⟩
  have h : (match Duo.slow.spc, Duo.slow.sprog with | .busy false, .done .hang => true | _, _ => false) = true := by decide +kernel
  split at h
  · rename_i h1 h2; exact .inl ⟨_, h1, .inl ⟨_, h2, by simp⟩⟩
  · cases h

/-- Finding (C81): it also happens when the internal request itself fails: in the default server the debugger receives the
exception; here it leaves the shell thread. -/
theorem C81_failed_witness : ∃ s : Duo Nat, SendsValues brokenInterp ∧ Duo.Reach sampleEnv brokenInterp 0 s ∧ s.calling = true ∧
    s.rep = none ∧ Halted s ∧ (∃ e, s.inner = some (.done (.exc e))) ∧
    s.controlQ = [wireOf (reqFrom "b" "m3" "shutdown_request" (.obj [(lit "restart", .bool false)]))] := by
  have h : (match Duo.failed.spc, Duo.failed.inner with | .echo, some (.done (.exc _)) => true | _, _ => false) = true := by
    decide +kernel
  split at h
  · rename_i e h1 h2
    exact ⟨Duo.failed, brokenInterp_sends, Duo.reach_choose _, by decide +kernel, by decide +kernel,
      .inr ⟨h1, _, h2, by simp⟩, ⟨_, h2⟩, by decide +kernel⟩
  · cases h

/-- Finding (C81): a debug request on the shell channel that needs the shell thread makes that wait for itself for ever, though no
handler fails. -/
theorem C81_self_witness : ∃ s : Duo Nat, SendsValues askInterp ∧ Duo.Reach sampleEnv askInterp 0 s ∧ Halted s ∧
    takenFrom .shell (served s.log) = [wireOf (reqFrom "a" "m1" "debug_request" (.obj []))] ∧
    (∀ r, s.sprog ≠ .done r) ∧ s.kpc = .entry := by
  have h : (match Duo.self.spc, Duo.self.sprog with | .busy _, .ask _ _ => true | _, _ => false) = true := by decide +kernel
  split at h
  · rename_i h1 h2
    exact ⟨Duo.self, askInterp_sends, Duo.reach_choose _, .inl ⟨_, h1, .inr ⟨_, _, h2⟩⟩, by decide +kernel,
      by rw [h2]; simp, by decide +kernel⟩
  · cases h

end Xeus
