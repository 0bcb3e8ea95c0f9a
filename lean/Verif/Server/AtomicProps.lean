import Verif.Server.Answers
import Verif.Server.ServiceProps

/-!
# The default server: messages are handled one at a time and every request is answered (property statements)
-/

namespace Xeus

open Spec K

variable {σ : Type}

/-! ## C78: one message at a time -/

/-- C78: whenever the server is not handling a message, its kernel is in a state reached by handling the messages received so
far one after the other, without interruption; those that arrived on the shell socket and were not taken from it are in the
queue. -/
theorem C78_serial (env : Env) (I : Interp σ) (st : Start σ) (s : Main σ) (h : Main.Reach env I st s) (hi : Idle s) :
    Serial env I st (handledIn s.log) (arrivedOn .shell s.log) s.c.w := by
  cases Main.ainv_reach h with
  | idle _ h => exact h
  | control hp => exact absurd hp (hi.1 _)
  | shell hp => exact absurd hp hi.2

/-- Three messages were handled. -/
example : ∃ s, Main.Reach sampleEnv sampleInterp 0 s ∧ Idle s ∧ (handledIn s.log).map (·.1) = [.control, .shell, .shell, .control] :=
  ⟨Main.day, Main.day_reach, by
    have h : Main.day.pc = .exited := by decide +kernel
    exact ⟨fun rs => by rw [h]; simp, by rw [h]; simp⟩, by decide +kernel⟩

/-- C78: each message handled was handled alone. -/
theorem C78_alone (env : Env) (I : Interp σ) (st : Start σ) (s : Main σ) (h : Main.Reach env I st s) (l₀ : List SEv) (c : Chan)
    (q : Multipart) (l : List SEv) (hl : s.log = l₀ ++ .act (.took c q) :: l) (hi : Idle s ∨ handledIn l ≠ []) :
    ∃ l₁ l₂ w', l = l₁ ++ l₂ ∧ handledIn l₁ = [] ∧ (l₂ = [] ∨ ∃ c' q' l₃, l₂ = .act (.took c' q') :: l₃) ∧
      HandledAlone env I st l₀ c q l₁ (.ok ()) w' := Main.past_reach h l₀ c q l hl hi

/-- The second message handled. -/
example : ∃ s l₀ q l, Main.Reach sampleEnv sampleInterp 0 s ∧ s.log = l₀ ++ .act (.took .shell q) :: l ∧ handledIn l ≠ [] ∧
    handledIn l₀ ≠ [] := by
  refine ⟨Main.day, Main.day.log.take 9, wireOf (reqFrom "a" "m1" "kernel_info_request" (.obj [])), Main.day.log.drop 10,
    Main.day_reach, ?_, ?_, ?_⟩ <;> decide +kernel

/-- C78: when an exception or undefined behaviour ends the server, or it waits for ever, it is that of handling the message
alone. -/
theorem C78_failure (env : Env) (I : Interp σ) (st : Start σ) (s : Main σ) (h : Main.Reach env I st s) (c : Chan) (r : Res Unit)
    (hp : (c = .control ∧ ∃ rs, s.pc = .control rs) ∨ (c = .shell ∧ s.pc = .shell)) (hd : s.c.prog c = .done r) :
    ∃ l₀ q l₁ w' A B, s.log = l₀ ++ .act (.took c q) :: l₁ ∧ handledIn l₁ = [] ∧ HandledAlone env I st l₀ c q l₁ r w' ∧
      s.c.w = { w' with shellQ := w'.shellQ ++ A, stdinQ := w'.stdinQ ++ B } := by
  obtain ⟨l₀, q, l₁, w', A, B, h1, h2, h3, h4, _⟩ := (Main.ainv_reach h).ended h c hp r hd
  exact ⟨l₀, q, l₁, w', A, B, h1, h2, h3, h4⟩

/-- A request whose type is not a text: the exception leaves the server. -/
def Main.lostTurns : List Main.Choice :=
  [.shell (wireOf (reqFrom "a" "m1" "kernel_info_request" (.obj []))),
   .shell (wireOf ⟨[lit "a"], ⟨.obj [(lit "msg_type", .int 1)], .obj [], .obj [], .obj [], []⟩⟩)] ++ List.replicate 100 .main

/-- The state after it. -/
def Main.lost : Main Nat := Main.lostTurns.foldl (Main.choose sampleEnv sampleInterp) (Main.init 0)

example : Main.Reach sampleEnv sampleInterp 0 Main.lost ∧ Main.lost.pc = .shell ∧
    Main.lost.c.prog .shell = .done (.exc .typeError) ∧ (handledIn Main.lost.log).length = 2 := by
  refine ⟨Main.reach_choose _, by decide +kernel, ?_, by decide +kernel⟩
  have key : ∀ p : K (World Nat) Unit, (match p with | .done (.exc .typeError) => true | _ => false) = true →
      p = .done (.exc .typeError) := by
    intro p hp
    split at hp
    · rfl
    · cases hp
  exact key _ (by decide +kernel)

/-- C17: the server shows the interpreter the numbers 1, 2, … , one for each well-formed non-silent execute request handled. -/
theorem C17_server (env : Env) (hs : Sane env) (I : Interp σ) (st : Start σ) (s : Main σ) (h : Main.Reach env I st s) (hi : Idle s)
    (n : Nat) (hn : Tally env ((handledIn s.log).map fun x => (x.2, x.1)) n) :
    s.c.w.count = n ∧ shownCounts s.c.w.out = (List.range n).map fun i : Nat => 1 + (i : Int) :=
  (serial_count hs (C78_serial env I st s h hi) n hn).2

/-- Two executions, and a request of another kind between them. -/
def Main.countTurns : List Main.Choice :=
  [.shell (wireOf (reqFrom "a" "m1" "execute_request" (.obj [(lit "code", .str (lit "1"))]))),
   .shell (wireOf (reqFrom "a" "m2" "kernel_info_request" (.obj []))),
   .shell (wireOf (reqFrom "a" "m3" "execute_request" (.obj [(lit "code", .str (lit "2"))])))] ++ List.replicate 250 .main

example : ∃ s, Main.Reach sampleEnv sampleInterp 0 s ∧ s.pc = .polling ∧ (handledIn s.log).length = 3 ∧ s.c.w.count = 2 :=
  ⟨Main.countTurns.foldl (Main.choose sampleEnv sampleInterp) (Main.init 0), Main.reach_choose _, by decide +kernel,
    by decide +kernel, by decide +kernel⟩

/-! ## C79: every request is answered -/

/-- C79: whenever the server is not handling a message, the replies sent are those described by `Account`: nobody is sent a
reply without a request, no request is answered twice, and the replies come in the order of the requests. -/
theorem C79_account (env : Env) (hs : Sane env) (I : Interp σ) (st : Start σ) (s : Main σ) (h : Main.Reach env I st s) (hi : Idle s) :
    Account env (handledIn s.log) (takenFrom .shell s.log) (repliesIn (eventsIn s.log)) := by
  obtain ⟨tk, h1, h2⟩ := serial_account hs (C78_serial env I st s h hi)
  rw [← (Main.qinv_reach h).shell] at h1
  rw [← List.append_cancel_right h1, Main.events_reach h]
  exact h2

/-- A failing execute request on the control channel answered an execute request and a request that was waiting. -/
example : Main.Reach sampleEnv failInterp 0 Main.deaf ∧ Main.deaf.pc = .recv ∧ (handledIn Main.deaf.log).length = 1 ∧
    (takenFrom .shell Main.deaf.log).length = 1 ∧ (repliesIn (eventsIn Main.deaf.log)).length = 2 :=
  ⟨Main.reach_choose _, by decide +kernel, by decide +kernel, by decide +kernel, by decide +kernel⟩

/-- C79: in every execution that is fair to the main thread in which no handler fails, every request that arrives on the shell
socket, and that the interpreter serves, is eventually answered or aborted, unless a stop is requested before it is received. -/
theorem C79_shell (env : Env) (hs : Sane env) (I : Interp σ) (st : Start σ) (e : Execution (Main.Step env I))
    (h0 : e.state 0 = Main.init st) (hf : Fair e .main) (n k : Nat) (q : Multipart)
    (hq : (arrivedOn .shell (e.state n).log)[k]? = some q)
    (hh : ∀ i, n ≤ i → ∀ t r, (e.state i).c.prog t = .done r → r = .ok ()) (m : XMessage)
    (ha : Accepted env.C env.J env.auth q m) (r : Req) (hr : IsReq m r)
    (hserved : ∀ i l as w rest, n ≤ i → l <+: handledIn (e.state i).log → Serial env I st l as w → ¬ stopAsked w →
      w.shellQ = q :: rest → Spec.Served env I m .shell { w with shellQ := rest } r) :
    ∃ i, n ≤ i ∧ (Answered env (e.state i).log .shell k q m r ∨ AbortedIn env (e.state i).log k q m ∨
      (stopAsked (e.state i).c.w ∧ (takenFrom .shell (e.state i).log).length ≤ k)) := by
  obtain ⟨i, hi, hi'⟩ := C77_shell env I st e h0 hf n k q hq hh
  obtain ⟨j, hj, hj'⟩ := Main.idle_again e hf i fun m hm => hh m (Nat.le_trans hi hm)
  refine ⟨j, Nat.le_trans hi hj, ?_⟩
  by_cases hk : (takenFrom .shell (e.state j).log)[k]? = some q
  · rcases Main.answered_reach hs (Main.reach_exec e h0 j) hj' hk ha hr
      (fun l as w rest a b c d => hserved j l as w rest (Nat.le_trans hi hj) a b c (by simpa using d)) with h | h
    · exact .inl h
    · exact .inr (.inl h)
  · refine .inr (.inr ?_)
    have hlen : (takenFrom .shell (e.state j).log).length ≤ k := by
      apply Nat.not_lt.1
      intro hlt
      refine hk ?_
      have h1 := (C47_order env I st _ (Main.reach_exec e h0 j)).2
      obtain ⟨x, hx⟩ := Main.log_exec e (Nat.le_trans hi hj)
      rw [← hx, arrivedOn_append] at h1
      have h2 : (takenFrom .shell (e.state j).log ++ (e.state j).c.w.shellQ)[k]? = some q := by
        obtain ⟨hk', _⟩ := List.getElem?_eq_some_iff.1 hq
        rw [← hx, h1, List.getElem?_append_left hk']; exact hq
      rw [List.getElem?_append_left hlt] at h2
      exact h2
    refine ⟨?_, hlen⟩
    rcases hi' with h | h
    · exfalso
      obtain ⟨x, hx⟩ := Main.log_exec e hj
      obtain ⟨h1, _⟩ := List.getElem?_eq_some_iff.1 h
      rw [← hx, takenFrom_append, List.length_append] at hlen
      omega
    · exact Main.stopAsked_exec e h0 hj h

/-- A request for information about the kernel is served in every state. -/
theorem kernelInfo_served (m : XMessage) (c : Chan) (w : World Nat) : Spec.Served sampleEnv sampleInterp m c w .kernelInfo := by
  intro pre w₁ _
  exact ⟨.obj [(lit "banner", .str (lit "hello"))], w₁, rfl, rfl, by decide, fun _ => (jsonUtf8_iff _).2 (by decide +kernel)⟩

theorem sample_accepted {m : XMessage} {q : Multipart} (h : deserialize sampleEnv.C sampleEnv.J sampleEnv.auth q = .ok m) :
    Accepted sampleEnv.C sampleEnv.J sampleEnv.auth q m := (C03_accepted_iff ..).1 h

/-- The second of two shell messages, when both have just arrived. -/
example : ∃ (e : Execution (Main.Step sampleEnv sampleInterp)) (q : Multipart) (m : XMessage), e.state 0 = Main.init 0 ∧
    Fair e .main ∧ (arrivedOn .shell (e.state 3).log)[1]? = some q ∧
    (∀ i, 3 ≤ i → ∀ t r, (e.state i).c.prog t = .done r → r = .ok ()) ∧
    Accepted sampleEnv.C sampleEnv.J sampleEnv.auth q m ∧ IsReq m .kernelInfo ∧
    (∀ i l as w rest, 3 ≤ i → l <+: handledIn (e.state i).log → Serial sampleEnv sampleInterp 0 l as w → ¬ stopAsked w →
      w.shellQ = q :: rest → Spec.Served sampleEnv sampleInterp m .shell { w with shellQ := rest } .kernelInfo) ∧
    takenFrom .shell (e.state 3).log = [] := by
  obtain ⟨e, h1, h2, h3, _⟩ := Main.day_exec
  exact ⟨e, wireOf (reqFrom "a" "m2" "kernel_info_request" (.obj [])), reqFrom "a" "m2" "kernel_info_request" (.obj []), h1 0,
    h2 _ (by simp), by rw [h1]; decide +kernel, fun m _ => h3 m, sample_accepted (by decide +kernel), rfl,
    fun _ _ _ _ _ _ _ _ _ _ => kernelInfo_served _ _ _, by rw [h1]; decide +kernel⟩

/-- C79: the same for the control socket, if no handler of a control message has aborted a shell message (C74). -/
theorem C79_control (env : Env) (hs : Sane env) (I : Interp σ) (st : Start σ) (e : Execution (Main.Step env I))
    (h0 : e.state 0 = Main.init st) (hf : Fair e .main) (n k : Nat) (q : Multipart)
    (hq : (arrivedOn .control (e.state n).log)[k]? = some q)
    (hh : ∀ i, n ≤ i → ∀ t r, (e.state i).c.prog t = .done r → r = .ok ())
    (hd : ∀ i, n ≤ i → ∀ q, SEv.act (.drained .control q) ∉ (e.state i).log) (m : XMessage)
    (ha : Accepted env.C env.J env.auth q m) (r : Req) (hr : IsReq m r)
    (hserved : ∀ i l as w, n ≤ i → l <+: handledIn (e.state i).log → Serial env I st l as w → ¬ stopAsked w →
      Spec.Served env I m .control w r) :
    ∃ i, n ≤ i ∧ (Answered env (e.state i).log .control k q m r ∨
      (stopAsked (e.state i).c.w ∧ (takenFrom .control (e.state i).log).length ≤ k)) := by
  obtain ⟨i, hi, hi'⟩ := C77_control env I st e h0 hf n k q hq hh hd
  obtain ⟨j, hj, hj'⟩ := Main.idle_again e hf i fun m hm => hh m (Nat.le_trans hi hm)
  refine ⟨j, Nat.le_trans hi hj, ?_⟩
  by_cases hk : (takenFrom .control (e.state j).log)[k]? = some q
  · obtain ⟨l₀, l, h1, h2⟩ := takenFrom_split_control hk
    refine .inl (Main.handled_answered hs (Main.reach_exec e h0 j) hj' h2 h1 ha hr fun l as w rest a b c d => ?_)
    simp only [reduceCtorEq, if_false] at d
    subst d
    exact hserved j l as w (Nat.le_trans hi hj) a b c
  · refine .inr ?_
    have hlen : (takenFrom .control (e.state j).log).length ≤ k := by
      apply Nat.not_lt.1
      intro hlt
      refine hk ?_
      have h1 := (C47_order env I st _ (Main.reach_exec e h0 j)).1
      obtain ⟨x, hx⟩ := Main.log_exec e (Nat.le_trans hi hj)
      rw [← hx, arrivedOn_append] at h1
      have h2 : (takenFrom .control (e.state j).log ++ (e.state j).c.controlQ)[k]? = some q := by
        obtain ⟨hk', _⟩ := List.getElem?_eq_some_iff.1 hq
        rw [← hx, h1, List.getElem?_append_left hk']; exact hq
      rw [List.getElem?_append_left hlt] at h2
      exact h2
    refine ⟨?_, hlen⟩
    rcases hi' with h | h
    · exfalso
      obtain ⟨x, hx⟩ := Main.log_exec e hj
      obtain ⟨h1, _⟩ := List.getElem?_eq_some_iff.1 h
      rw [← hx, takenFrom_append, List.length_append] at hlen
      omega
    · exact Main.stopAsked_exec e h0 hj h

example : ∃ (e : Execution (Main.Step sampleEnv sampleInterp)) (q : Multipart) (m : XMessage), e.state 0 = Main.init 0 ∧
    Fair e .main ∧ (arrivedOn .control (e.state 3).log)[0]? = some q ∧
    (∀ i, 3 ≤ i → ∀ t r, (e.state i).c.prog t = .done r → r = .ok ()) ∧
    (∀ i, 3 ≤ i → ∀ q, SEv.act (.drained .control q) ∉ (e.state i).log) ∧
    Accepted sampleEnv.C sampleEnv.J sampleEnv.auth q m ∧ IsReq m .kernelInfo ∧
    (∀ i l as w, 3 ≤ i → l <+: handledIn (e.state i).log → Serial sampleEnv sampleInterp 0 l as w → ¬ stopAsked w →
      Spec.Served sampleEnv sampleInterp m .control w .kernelInfo) ∧ takenFrom .control (e.state 3).log = [] := by
  obtain ⟨e, h1, h2, h3, h4⟩ := Main.day_exec
  exact ⟨e, wireOf (reqFrom "b" "m3" "kernel_info_request" (.obj [])), reqFrom "b" "m3" "kernel_info_request" (.obj []), h1 0,
    h2 _ (by simp), by rw [h1]; decide +kernel, fun m _ => h3 m, fun m _ => h4 m, sample_accepted (by decide +kernel), rfl,
    fun _ _ _ _ _ _ _ _ => kernelInfo_served _ _ _, by rw [h1]; decide +kernel⟩

end Xeus
