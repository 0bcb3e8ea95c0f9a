import Verif.Server.Service
import Verif.Server.SplitProps

/-!
# Servers: no message waits for ever (property statements)
-/

namespace Xeus

open Spec K

variable {σ : Type}

/-! ## Executions used in the examples -/

/-- Turns taken one after the other, then a pause for ever. -/
theorem exec_of_turns {S W C : Type _} {step : W → S → S → Prop} (choose : S → C → S) (ok : S → Prop)
    (hstep : ∀ s c, ok s → (choose s c = s ∨ ∃ a, step a s (choose s c)) ∧ ok (choose s c)) (s₀ : S) (h₀ : ok s₀) (cs : List C) :
    ∃ e : Execution step, ∀ n, e.state n = (cs.take n).foldl choose s₀ := by
  have hok : ∀ n, ok ((cs.take n).foldl choose s₀) := by
    intro n
    generalize cs.take n = l
    induction l generalizing s₀ with
    | nil => exact h₀
    | cons c l ih => exact ih _ (hstep _ c h₀).2
  have hnext : ∀ n, ((cs.take (n + 1)).foldl choose s₀ = (cs.take n).foldl choose s₀) ∨
      ∃ a, step a ((cs.take n).foldl choose s₀) ((cs.take (n + 1)).foldl choose s₀) := by
    intro n
    cases hc : cs[n]? with
    | none =>
      have := List.getElem?_eq_none_iff.1 hc
      rw [List.take_of_length_le this, List.take_of_length_le (by omega)]
      exact .inl rfl
    | some c =>
      rw [List.take_add_one, hc]
      simp only [Option.toList_some, List.foldl_append, List.foldl_cons, List.foldl_nil]
      exact (hstep _ c (hok n)).1
  have hw : ∀ n, ∃ o : Option W, match o with
      | none => (cs.take (n + 1)).foldl choose s₀ = (cs.take n).foldl choose s₀
      | some a => step a ((cs.take n).foldl choose s₀) ((cs.take (n + 1)).foldl choose s₀) := by
    intro n
    rcases hnext n with h | ⟨a, h⟩
    · exact ⟨none, h⟩
    · exact ⟨some a, h⟩
  exact ⟨⟨fun n => (cs.take n).foldl choose s₀, fun n => (hw n).choose, fun n => (hw n).choose_spec⟩, fun _ => rfl⟩

/-- A test of all states passed through. -/
def throughout {S C : Type _} (choose : S → C → S) (good : S → Bool) : S → List C → Bool
  | s, [] => good s
  | s, c :: cs => good s && throughout choose good (choose s c) cs

theorem throughout_ok {S C : Type _} {choose : S → C → S} {good : S → Bool} {s : S} {cs : List C}
    (h : throughout choose good s cs = true) (n : Nat) : good ((cs.take n).foldl choose s) = true := by
  induction cs generalizing s n with
  | nil => simpa [throughout] using h
  | cons c cs ih =>
    simp only [throughout, Bool.and_eq_true] at h
    cases n with
    | zero => exact h.1
    | succ n => exact ih h.2 n

/-- A handler has not failed. -/
def unfailed (p : K (World σ) Unit) : Bool :=
  match p with
  | .done (.ok ()) => true
  | .done _ => false
  | .act _ _ => true

theorem unfailed_ok {p : K (World σ) Unit} (h : unfailed p = true) (r) (hp : p = .done r) : r = .ok () := by
  subst hp
  unfold unfailed at h
  split at h
  · rename_i h'; injection h'
  · cases h
  · rename_i h'; cases h'

/-- No source is passed over if only finitely many messages are sent. -/
theorem fairSource_of_end {S W ι : Type _} {step : W → S → S → Prop} {f : S → Relay ι} {e : Execution step} {i : ι} {N : Nat}
    (h : ∀ m, (f (e.state m)).passed.length ≤ N) : FairSource f e i := by
  intro n _ hL
  obtain ⟨m, hm⟩ := hL (N + 1)
  have := h m
  omega

/-! ## The default server -/

namespace Main

theorem choose_one {env : Env} {I : Interp σ} (s : Main σ) (c : Choice) (he : ∀ i, s.hb.inq i = []) :
    (choose env I s c = s ∨ ∃ a, Step env I a s (choose env I s c)) ∧ ∀ i, (choose env I s c).hb.inq i = [] := by
  cases c with
  | shell q => exact ⟨.inr ⟨_, .arriveShell s q⟩, he⟩
  | control q => exact ⟨.inr ⟨_, .arriveControl s q⟩, he⟩
  | main =>
    obtain ⟨h1 | h1, h2⟩ := mainNext_ok (env := env) (I := I) s
    · exact ⟨.inr ⟨_, h1⟩, by show ∀ i, (mainNext env I s).hb.inq i = []; rw [h2]; exact he⟩
    · exact ⟨.inl h1, by show ∀ i, (mainNext env I s).hb.inq i = []; rw [h2]; exact he⟩
  | pub =>
    rcases pubNext_ok s.pub with h1 | h1
    · exact ⟨.inr ⟨_, .publisher s _ h1⟩, he⟩
    · refine ⟨.inl ?_, he⟩
      show { s with pub := pubNext s.pub } = s
      rw [h1]
  | hb =>
    obtain ⟨h1 | h1, h2⟩ := hbNext_ok s.hb he
    · exact ⟨.inr ⟨_, .heartbeat s _ h1⟩, h2⟩
    · refine ⟨.inl ?_, h2⟩
      show { s with hb := hbNext s.hb } = s
      rw [h1]

/-- The day described in `Verif/Server/Props` as an execution. -/
theorem day_exec : ∃ e : Execution (Step sampleEnv sampleInterp), (∀ n, e.state n = (dayTurns.take n).foldl (choose sampleEnv sampleInterp) (init 0)) ∧
    (∀ a, a ≠ Who.world → Fair e a) ∧ (∀ m t r, (e.state m).c.prog t = .done r → r = .ok ()) ∧
    (∀ m q, SEv.act (.drained .control q) ∉ (e.state m).log) := by
  obtain ⟨e, he⟩ := exec_of_turns (step := Step sampleEnv sampleInterp) (choose sampleEnv sampleInterp)
    (fun s => ∀ i, s.hb.inq i = []) (fun s c h => choose_one s c h) (init 0) (fun _ => rfl) dayTurns
  have h2 : day.pc = .exited := by decide +kernel
  have h3 : day.pub.pc = .over := by decide +kernel
  have h4 : day.hb.pc = .over := by decide +kernel
  have hN : ∀ m, dayTurns.length ≤ m → e.state m = day := fun m hm => by rw [he, List.take_of_length_le hm]; rfl
  have hg : throughout (choose sampleEnv sampleInterp) (fun s => unfailed (s.c.prog .shell) && unfailed (s.c.prog .control))
      (init 0) dayTurns = true := by decide +kernel
  refine ⟨e, he, fun a ha => ?_, fun m t r hr => ?_, fun m q hq => ?_⟩
  · cases a with
    | world => exact absurd rfl ha
    | main => exact fair_of_end e hN (exited_no_main h2)
    | pub => exact fair_of_end e hN (over_no_pub h3)
    | hb => exact fair_of_end e hN (over_no_hb h4)
  · have := throughout_ok hg m
    rw [← he, Bool.and_eq_true] at this
    cases t with
    | shell => exact unfailed_ok this.1 r hr
    | control => exact unfailed_ok this.2 r hr
  · have hl := (log_exec e (Nat.le_max_left m dayTurns.length)).subset hq
    rw [hN _ (Nat.le_max_right _ _)] at hl
    have : day.log.all fun x => match x with | .act (.drained .control _) => false | _ => true := by decide +kernel
    have := List.all_eq_true.1 this _ hl
    cases this

end Main

/-- C77: in every execution that is fair to the main thread, every message that arrives on the shell socket is eventually
received, unless a stop is requested or a handler fails. -/
theorem C77_shell (env : Env) (I : Interp σ) (st : Start σ) (e : Execution (Main.Step env I)) (h0 : e.state 0 = Main.init st)
    (hf : Fair e .main) (n k : Nat) (q : Multipart) (hq : (arrivedOn .shell (e.state n).log)[k]? = some q)
    (hh : ∀ m, n ≤ m → ∀ t r, (e.state m).c.prog t = .done r → r = .ok ()) :
    ∃ m, n ≤ m ∧ ((takenFrom .shell (e.state m).log)[k]? = some q ∨ stopAsked (e.state m).c.w) := by
  obtain ⟨hk, _⟩ := List.getElem?_eq_some_iff.1 hq
  obtain ⟨m, hm, h | h⟩ := Main.serves_shell e h0 hf n k hk hh
  · refine ⟨m, hm, .inl ?_⟩
    have h1 := (C47_order env I st _ (Main.reach_exec e h0 m)).2
    obtain ⟨x, hx⟩ := Main.log_exec e hm
    rw [← hx, arrivedOn_append] at h1
    have h2 : (takenFrom .shell (e.state m).log ++ (e.state m).c.w.shellQ)[k]? = some q := by
      rw [← hx, h1, List.getElem?_append_left hk]; exact hq
    rw [List.getElem?_append_left h] at h2
    exact h2
  · exact ⟨m, hm, .inr h⟩

/-- The second of two shell messages, when both have just arrived. -/
example : ∃ e : Execution (Main.Step sampleEnv sampleInterp), e.state 0 = Main.init 0 ∧ Fair e .main ∧
    (arrivedOn .shell (e.state 3).log)[1]? = some (wireOf (reqFrom "a" "m2" "kernel_info_request" (.obj []))) ∧
    (∀ m, 3 ≤ m → ∀ t r, (e.state m).c.prog t = .done r → r = .ok ()) ∧ takenFrom .shell (e.state 3).log = [] := by
  obtain ⟨e, h1, h2, h3, _⟩ := Main.day_exec
  exact ⟨e, h1 0, h2 _ (by simp), by rw [h1]; decide +kernel, fun m _ => h3 m, by rw [h1]; decide +kernel⟩

/-- C77: the same for the control socket, if no handler of a control message has aborted a shell message (C74). -/
theorem C77_control (env : Env) (I : Interp σ) (st : Start σ) (e : Execution (Main.Step env I)) (h0 : e.state 0 = Main.init st)
    (hf : Fair e .main) (n k : Nat) (q : Multipart) (hq : (arrivedOn .control (e.state n).log)[k]? = some q)
    (hh : ∀ m, n ≤ m → ∀ t r, (e.state m).c.prog t = .done r → r = .ok ())
    (hd : ∀ m, n ≤ m → ∀ q, SEv.act (.drained .control q) ∉ (e.state m).log) :
    ∃ m, n ≤ m ∧ ((takenFrom .control (e.state m).log)[k]? = some q ∨ stopAsked (e.state m).c.w) := by
  obtain ⟨hk, _⟩ := List.getElem?_eq_some_iff.1 hq
  obtain ⟨m, hm, h | h⟩ := Main.serves_control e h0 hf n k hk hh hd
  · refine ⟨m, hm, .inl ?_⟩
    have h1 := (C47_order env I st _ (Main.reach_exec e h0 m)).1
    obtain ⟨x, hx⟩ := Main.log_exec e hm
    rw [← hx, arrivedOn_append] at h1
    have h2 : (takenFrom .control (e.state m).log ++ (e.state m).c.controlQ)[k]? = some q := by
      rw [← hx, h1, List.getElem?_append_left hk]; exact hq
    rw [List.getElem?_append_left h] at h2
    exact h2
  · exact ⟨m, hm, .inr h⟩

example : ∃ e : Execution (Main.Step sampleEnv sampleInterp), e.state 0 = Main.init 0 ∧ Fair e .main ∧
    (arrivedOn .control (e.state 3).log)[0]? = some (wireOf (reqFrom "b" "m3" "kernel_info_request" (.obj []))) ∧
    (∀ m, 3 ≤ m → ∀ t r, (e.state m).c.prog t = .done r → r = .ok ()) ∧
    (∀ m, 3 ≤ m → ∀ q, SEv.act (.drained .control q) ∉ (e.state m).log) ∧ takenFrom .control (e.state 3).log = [] := by
  obtain ⟨e, h1, h2, h3, h4⟩ := Main.day_exec
  exact ⟨e, h1 0, h2 _ (by simp), by rw [h1]; decide +kernel, fun m _ => h3 m, fun m _ => h4 m, by rw [h1]; decide +kernel⟩

theorem Main.recv_no_main {env : Env} {I : Interp σ} {s : Main σ} (h : s.pc = .recv) (hq : s.c.w.shellQ = []) :
    ¬ CanStep (Main.Step env I) .main s := by
  rintro ⟨s', hs⟩
  cases hs <;> simp_all

theorem Main.recv_idle {env : Env} {I : Interp σ} {st : Start σ} {s : Main σ} (hk : Main.KInv env I st s) (hp : s.pc = .recv) (t r)
    (hr : s.c.prog t = .done r) : r = .ok () := by
  cases t with
  | shell => rw [hk.idleS (by rw [hp]; simp)] at hr; injection hr with hr; exact hr.symm
  | control => rw [hk.idleC (by rw [hp]; simp)] at hr; injection hr with hr; exact hr.symm

/-- Finding (C77, C74): otherwise a control message can wait for ever, though the main thread is treated fairly, no handler
fails and no stop is requested. -/
theorem C77_control_witness : ∃ (e : Execution (Main.Step sampleEnv failInterp)) (n k : Nat), e.state 0 = Main.init 0 ∧
    Fair e .main ∧ k < (arrivedOn .control (e.state n).log).length ∧
    (∀ m, n ≤ m → ∀ t r, (e.state m).c.prog t = .done r → r = .ok ()) ∧
    ∀ m, n ≤ m → (takenFrom .control (e.state m).log).length ≤ k ∧ ¬ stopAsked (e.state m).c.w := by
  have hd : Steps (Main.Step sampleEnv failInterp) (Main.init 0) Main.deaf := Main.steps_choose Main.deafTurns fun _ => rfl
  obtain ⟨e, N, h0, hN⟩ := exec_of_steps hd
  refine ⟨e, N, 1, h0, fair_of_end e hN (Main.recv_no_main (by decide +kernel) (by decide +kernel)), ?_, ?_, ?_⟩
  · rw [hN N (Nat.le_refl _)]; decide +kernel
  · intro m hm t r hr
    rw [hN m hm] at hr
    exact Main.recv_idle (Main.kinv_reach (Main.reach_steps .start hd)) (by decide +kernel) t r hr
  · intro m hm
    rw [hN m hm]
    constructor <;> decide +kernel

/-- C77: in every execution that is fair to the publisher thread, every published message that its socket has kept is eventually
passed on, unless the thread ends. -/
theorem C77_publish (env : Env) (I : Interp σ) (st : Start σ) (e : Execution (Main.Step env I)) (h0 : e.state 0 = Main.init st)
    (hf : Fair e .pub) (n k : Nat) (q : Multipart)
    (hq : ((e.state n).pub.passedOf () ++ (e.state n).pub.held () ++ (e.state n).pub.inq ())[k]? = some q) :
    ∃ m, n ≤ m ∧ (((e.state m).pub.passedOf ())[k]? = some q ∨ (e.state m).pub.pc = .over) := by
  have hr := fun m => Main.rinv_reach (Main.reach_exec e h0 m)
  rw [← (hr n).pubCounted ()] at hq
  obtain ⟨hk, _⟩ := List.getElem?_eq_some_iff.1 hq
  obtain ⟨m, hm, h | h⟩ := Main.inside_pub.serves e hf (fun m => (hr m).pubSeen) (fun m => (hr m).pubCounted) ()
    (Main.inside_pub.fairSource e) n k hk
  · refine ⟨m, hm, .inl ?_⟩
    obtain ⟨x, hx⟩ := Main.inside_pub.given_mono e hm ()
    have h1 := (hr m).pubCounted ()
    rw [← hx, List.append_assoc] at h1
    have h2 := congrArg (·[k]?) h1
    rw [List.getElem?_append_left hk, hq, List.getElem?_append_left h] at h2
    exact h2.symm
  · exact ⟨m, hm, .inr h⟩

example : ∃ (e : Execution (Main.Step sampleEnv sampleInterp)) (n : Nat), e.state 0 = Main.init 0 ∧ Fair e .pub ∧
    (((e.state n).pub.passedOf () ++ (e.state n).pub.held () ++ (e.state n).pub.inq ())[0]?).isSome ∧
    (e.state n).pub.passedOf () = [] := by
  obtain ⟨e, h1, h2, _⟩ := Main.day_exec
  exact ⟨e, 22, h1 0, h2 _ (by simp), by rw [h1]; decide +kernel, by rw [h1]; decide +kernel⟩

/-- C77: in every execution that is fair to the heartbeat thread, every ping of a client is eventually sent back, unless the thread
ends, if the socket is fair to the client. -/
theorem C77_heartbeat (env : Env) (I : Interp σ) (st : Start σ) (e : Execution (Main.Step env I)) (h0 : e.state 0 = Main.init st)
    (hf : Fair e .hb) (i : Nat) (hs : FairSource (fun s : Main σ => s.hb) e i) (n k : Nat) (q : Multipart)
    (hq : ((e.state n).hb.passedOf i ++ (e.state n).hb.held i ++ (e.state n).hb.inq i)[k]? = some q) :
    ∃ m, n ≤ m ∧ (((e.state m).hb.passedOf i)[k]? = some q ∨ (e.state m).hb.pc = .over) := by
  have hr := fun m => Main.rinv_reach (Main.reach_exec e h0 m)
  rw [← (hr n).hbCounted i] at hq
  obtain ⟨hk, _⟩ := List.getElem?_eq_some_iff.1 hq
  obtain ⟨m, hm, h | h⟩ := Main.inside_hb.serves e hf (fun m => (hr m).hbSeen) (fun m => (hr m).hbCounted) i hs n k hk
  · refine ⟨m, hm, .inl ?_⟩
    obtain ⟨x, hx⟩ := Main.inside_hb.given_mono e hm i
    have h1 := (hr m).hbCounted i
    rw [← hx, List.append_assoc] at h1
    have h2 := congrArg (·[k]?) h1
    rw [List.getElem?_append_left hk, hq, List.getElem?_append_left h] at h2
    exact h2.symm
  · exact ⟨m, hm, .inr h⟩

example : ∃ (e : Execution (Main.Step sampleEnv sampleInterp)) (n : Nat), e.state 0 = Main.init 0 ∧ Fair e .hb ∧
    FairSource (fun s : Main Nat => s.hb) e 7 ∧
    ((e.state n).hb.passedOf 7 ++ (e.state n).hb.held 7 ++ (e.state n).hb.inq 7)[0]? = some [[1, 2]] := by
  have h2 : Steps (Main.Step sampleEnv sampleInterp) Main.pinged Main.pongedDay := by
    refine Steps.trans Main.ponged_steps (Main.steps_choose Main.dayTurns fun i => ?_)
    show Relay.upd Main.pinged.hb.inq 7 [] i = []
    simp [Relay.upd, Main.pinged, Relay.put, Relay.init]
  obtain ⟨e, n, N, h0, hn, hN⟩ := exec_through Main.pinged_steps h2
  refine ⟨e, n, h0, fair_of_end e hN (Main.over_no_hb (by decide +kernel)), fairSource_of_end (N := Main.pongedDay.hb.passed.length) fun m => ?_,
    by rw [hn]; decide⟩
  rw [← hN _ (Nat.le_max_right m N)]
  exact (Main.inside_hb.passed_mono e (Nat.le_max_left m N)).length_le

/-! ## The split servers -/

namespace Split

theorem choose_one {env : Env} {I : Interp σ} (s : Split σ) (c : Choice) (he : ∀ i, s.hb.inq i = []) :
    (choose env I s c = s ∨ ∃ a, Step env I a s (choose env I s c)) ∧ ∀ i, (choose env I s c).hb.inq i = [] := by
  cases c with
  | toShell q => exact ⟨.inr ⟨_, .arriveShell s q⟩, he⟩
  | toControl q => exact ⟨.inr ⟨_, .arriveControl s q⟩, he⟩
  | control =>
    obtain ⟨h1 | h1, h2⟩ := controlNext_ok (env := env) (I := I) s
    · exact ⟨.inr ⟨_, h1⟩, by show ∀ i, (controlNext env I s).hb.inq i = []; rw [h2]; exact he⟩
    · exact ⟨.inl h1, by show ∀ i, (controlNext env I s).hb.inq i = []; rw [h2]; exact he⟩
  | shell =>
    obtain ⟨h1 | h1, h2⟩ := shellNext_ok (env := env) (I := I) s
    · exact ⟨.inr ⟨_, h1⟩, by show ∀ i, (shellNext env I s).hb.inq i = []; rw [h2]; exact he⟩
    · exact ⟨.inl h1, by show ∀ i, (shellNext env I s).hb.inq i = []; rw [h2]; exact he⟩
  | pub =>
    rcases pubNext_ok s.pub with h1 | h1
    · exact ⟨.inr ⟨_, .publisher s _ h1⟩, he⟩
    · refine ⟨.inl ?_, he⟩
      show { s with pub := pubNext s.pub } = s
      rw [h1]
  | hb =>
    obtain ⟨h1 | h1, h2⟩ := Main.hbNext_ok s.hb he
    · exact ⟨.inr ⟨_, .heartbeat s _ h1⟩, h2⟩
    · refine ⟨.inl ?_, h2⟩
      show { s with hb := Main.hbNext s.hb } = s
      rw [h1]

/-- The day described in `Verif/Server/SplitProps` as an execution. -/
theorem day_exec : ∃ e : Execution (Step sampleEnv sampleInterp), (∀ n, e.state n = (dayTurns.take n).foldl (choose sampleEnv sampleInterp) (init 0)) ∧
    (∀ a, a ≠ SWho.world → Fair e a) ∧ (∀ m t r, (e.state m).c.prog t = .done r → r = .ok ()) ∧
    (∀ i, FairSource (fun s : Split Nat => s.pub) e i) := by
  obtain ⟨e, he⟩ := exec_of_turns (step := Step sampleEnv sampleInterp) (choose sampleEnv sampleInterp)
    (fun s => ∀ i, s.hb.inq i = []) (fun s c h => choose_one s c h) (init 0) (fun _ => rfl) dayTurns
  have h1 : day.kpc = .over := by decide +kernel
  have h2 : day.spc = .over := by decide +kernel
  have h3 : day.pub.pc = .over := by decide +kernel
  have h4 : day.hb.pc = .over := by decide +kernel
  have hN : ∀ m, dayTurns.length ≤ m → e.state m = day := fun m hm => by rw [he, List.take_of_length_le hm]; rfl
  have hg : throughout (choose sampleEnv sampleInterp) (fun s => unfailed (s.c.prog .shell) && unfailed (s.c.prog .control))
      (init 0) dayTurns = true := by decide +kernel
  refine ⟨e, he, fun a ha => fair_of_end e hN (over_stuck h1 h2 h3 h4 a ha), fun m t r hr => ?_,
    fun i => fairSource_of_end (N := day.pub.passed.length) fun m => ?_⟩
  · have := throughout_ok hg m
    rw [← he, Bool.and_eq_true] at this
    cases t with
    | shell => exact unfailed_ok this.1 r hr
    | control => exact unfailed_ok this.2 r hr
  · rw [← hN _ (Nat.le_max_right m dayTurns.length)]
    exact (inside_pub.passed_mono e (Nat.le_max_left m dayTurns.length)).length_le

end Split

/-- C77 for the split servers: in every execution that is fair to the shell thread, every message that arrives on the shell
socket is eventually received, unless the thread ends or a handler fails. -/
theorem C77_split_shell (env : Env) (I : Interp σ) (st : Start σ) (e : Execution (Split.Step env I)) (h0 : e.state 0 = Split.init st)
    (hf : Fair e .shell) (n k : Nat) (q : Multipart) (hq : (arrivedOn .shell (e.state n).log)[k]? = some q)
    (hh : ∀ m, n ≤ m → ∀ t r, (e.state m).c.prog t = .done r → r = .ok ()) :
    ∃ m, n ≤ m ∧ ((takenFrom .shell (e.state m).log)[k]? = some q ∨ (e.state m).spc = .over) := by
  obtain ⟨hk, _⟩ := List.getElem?_eq_some_iff.1 hq
  obtain ⟨m, hm, h | h⟩ := Split.serves_shell e h0 hf n k hk hh
  · refine ⟨m, hm, .inl ?_⟩
    have h1 := (C51_order env I st _ (Split.reach_exec e h0 m)).2
    obtain ⟨x, hx⟩ := Split.log_exec e hm
    rw [← hx, arrivedOn_append] at h1
    have h2 : (takenFrom .shell (e.state m).log ++ (e.state m).c.w.shellQ)[k]? = some q := by
      rw [← hx, h1, List.getElem?_append_left hk]; exact hq
    rw [List.getElem?_append_left h] at h2
    exact h2
  · exact ⟨m, hm, .inr h⟩

example : ∃ e : Execution (Split.Step sampleEnv sampleInterp), e.state 0 = Split.init 0 ∧ Fair e .shell ∧
    (arrivedOn .shell (e.state 3).log)[1]? = some (wireOf (reqFrom "a" "m2" "kernel_info_request" (.obj []))) ∧
    (∀ m, 3 ≤ m → ∀ t r, (e.state m).c.prog t = .done r → r = .ok ()) ∧ takenFrom .shell (e.state 3).log = [] := by
  obtain ⟨e, h1, h2, h3, _⟩ := Split.day_exec
  exact ⟨e, h1 0, h2 _ (by simp), by rw [h1]; decide +kernel, fun m _ => h3 m, by rw [h1]; decide +kernel⟩

/-- C77 for the split servers: the same for the control thread, until it has begun and a stop is requested. -/
theorem C77_split_control (env : Env) (I : Interp σ) (st : Start σ) (e : Execution (Split.Step env I)) (h0 : e.state 0 = Split.init st)
    (hf : Fair e .control) (n k : Nat) (q : Multipart) (hq : (arrivedOn .control (e.state n).log)[k]? = some q)
    (hh : ∀ m, n ≤ m → ∀ t r, (e.state m).c.prog t = .done r → r = .ok ()) :
    ∃ m, n ≤ m ∧ ((takenFrom .control (e.state m).log)[k]? = some q ∨ ((e.state m).flag = true ∧ (e.state m).kpc ≠ .entry)) := by
  obtain ⟨hk, _⟩ := List.getElem?_eq_some_iff.1 hq
  obtain ⟨m, hm, h | h⟩ := Split.serves_control e h0 hf n k hk hh
  · refine ⟨m, hm, .inl ?_⟩
    have h1 := (C51_order env I st _ (Split.reach_exec e h0 m)).1
    obtain ⟨x, hx⟩ := Split.log_exec e hm
    rw [← hx, arrivedOn_append] at h1
    have h2 : (takenFrom .control (e.state m).log ++ (e.state m).c.controlQ)[k]? = some q := by
      rw [← hx, h1, List.getElem?_append_left hk]; exact hq
    rw [List.getElem?_append_left h] at h2
    exact h2
  · exact ⟨m, hm, .inr h⟩

example : ∃ e : Execution (Split.Step sampleEnv sampleInterp), e.state 0 = Split.init 0 ∧ Fair e .control ∧
    (arrivedOn .control (e.state 3).log)[0]? = some (wireOf (reqFrom "b" "m3" "kernel_info_request" (.obj []))) ∧
    (∀ m, 3 ≤ m → ∀ t r, (e.state m).c.prog t = .done r → r = .ok ()) ∧ takenFrom .control (e.state 3).log = [] := by
  obtain ⟨e, h1, h2, h3, _⟩ := Split.day_exec
  exact ⟨e, h1 0, h2 _ (by simp), by rw [h1]; decide +kernel, fun m _ => h3 m, by rw [h1]; decide +kernel⟩

/-- C77 for the split servers: publications, if the socket of the publisher is fair to the two publishing threads. -/
theorem C77_split_publish (env : Env) (I : Interp σ) (st : Start σ) (e : Execution (Split.Step env I)) (h0 : e.state 0 = Split.init st)
    (hf : Fair e .pub) (i : Chan) (hs : FairSource (fun s : Split σ => s.pub) e i) (n k : Nat) (q : Multipart)
    (hq : ((e.state n).pub.passedOf i ++ (e.state n).pub.held i ++ (e.state n).pub.inq i)[k]? = some q) :
    ∃ m, n ≤ m ∧ (((e.state m).pub.passedOf i)[k]? = some q ∨ (e.state m).pub.pc = .over) := by
  have hr := fun m => Split.rinv_reach (Split.reach_exec e h0 m)
  rw [← (hr n).pubCounted i] at hq
  obtain ⟨hk, _⟩ := List.getElem?_eq_some_iff.1 hq
  obtain ⟨m, hm, h | h⟩ := Split.inside_pub.serves e hf (fun m => (hr m).pubSeen) (fun m => (hr m).pubCounted) i hs n k hk
  · refine ⟨m, hm, .inl ?_⟩
    obtain ⟨x, hx⟩ := Split.inside_pub.given_mono e hm i
    have h1 := (hr m).pubCounted i
    rw [← hx, List.append_assoc] at h1
    have h2 := congrArg (·[k]?) h1
    rw [List.getElem?_append_left hk, hq, List.getElem?_append_left h] at h2
    exact h2.symm
  · exact ⟨m, hm, .inr h⟩

example : ∃ (e : Execution (Split.Step sampleEnv sampleInterp)) (n : Nat), e.state 0 = Split.init 0 ∧ Fair e .pub ∧
    FairSource (fun s : Split Nat => s.pub) e .control ∧
    (((e.state n).pub.passedOf .control ++ (e.state n).pub.held .control ++ (e.state n).pub.inq .control)[0]?).isSome ∧
    (e.state n).pub.passedOf .control = [] := by
  obtain ⟨e, h1, h2, _, h4⟩ := Split.day_exec
  exact ⟨e, 45, h1 0, h2 _ (by simp), h4 _, by rw [h1]; decide +kernel, by rw [h1]; decide +kernel⟩

/-- C77 for the split servers: heartbeats. -/
theorem C77_split_heartbeat (env : Env) (I : Interp σ) (st : Start σ) (e : Execution (Split.Step env I)) (h0 : e.state 0 = Split.init st)
    (hf : Fair e .hb) (i : Nat) (hs : FairSource (fun s : Split σ => s.hb) e i) (n k : Nat) (q : Multipart)
    (hq : ((e.state n).hb.passedOf i ++ (e.state n).hb.held i ++ (e.state n).hb.inq i)[k]? = some q) :
    ∃ m, n ≤ m ∧ (((e.state m).hb.passedOf i)[k]? = some q ∨ (e.state m).hb.pc = .over) := by
  have hr := fun m => Split.rinv_reach (Split.reach_exec e h0 m)
  rw [← (hr n).hbCounted i] at hq
  obtain ⟨hk, _⟩ := List.getElem?_eq_some_iff.1 hq
  obtain ⟨m, hm, h | h⟩ := Split.inside_hb.serves e hf (fun m => (hr m).hbSeen) (fun m => (hr m).hbCounted) i hs n k hk
  · refine ⟨m, hm, .inl ?_⟩
    obtain ⟨x, hx⟩ := Split.inside_hb.given_mono e hm i
    have h1 := (hr m).hbCounted i
    rw [← hx, List.append_assoc] at h1
    have h2 := congrArg (·[k]?) h1
    rw [List.getElem?_append_left hk, hq, List.getElem?_append_left h] at h2
    exact h2.symm
  · exact ⟨m, hm, .inr h⟩

/-- A client has sent a heartbeat. -/
def Split.pinged : Split Nat := { Split.init 0 with hb := Relay.put (Relay.init) 7 [[[1, 2]]] }

/-- It has been sent back. -/
def Split.ponged : Split Nat :=
  { Split.init 0 with hb := ⟨.asked false, Relay.upd Split.pinged.hb.inq 7 [], false, false, Split.pinged.hb.given, [(7, [[1, 2]])]⟩ }

/-- After that comes the day described above. -/
def Split.pongedDay : Split Nat := Split.dayTurns.foldl (Split.choose sampleEnv sampleInterp) Split.ponged

example : ∃ (e : Execution (Split.Step sampleEnv sampleInterp)) (n : Nat), e.state 0 = Split.init 0 ∧ Fair e .hb ∧
    FairSource (fun s : Split Nat => s.hb) e 7 ∧
    ((e.state n).hb.passedOf 7 ++ (e.state n).hb.held 7 ++ (e.state n).hb.inq 7)[0]? = some [[1, 2]] := by
  have h0 : Steps (Split.Step sampleEnv sampleInterp) (Split.init 0) Split.pinged := (Steps.refl _).tail (.ping _ 7 [[1, 2]])
  have h1 := (Steps.refl (step := Split.Step sampleEnv sampleInterp) Split.pinged).tail
    (.heartbeat _ _ (.sample0 _ true rfl (by simpa using ⟨7, by decide⟩)))
  have h2 := h1.tail (.heartbeat _ _ (.sample1 _ true rfl (.inl rfl)))
  have h3 := h2.tail (.heartbeat _ _ (.recv _ false 7 [[1, 2]] [] rfl rfl))
  have h4 : Steps _ _ Split.ponged := h3.tail (.heartbeat _ _ (.send _ 7 [[1, 2]] false rfl))
  have h5 : Steps (Split.Step sampleEnv sampleInterp) Split.pinged Split.pongedDay := by
    refine Steps.trans h4 (Split.steps_choose Split.dayTurns fun i => ?_)
    show Relay.upd Split.pinged.hb.inq 7 [] i = []
    simp [Relay.upd, Split.pinged, Relay.put, Relay.init]
  obtain ⟨e, n, N, h0, hn, hN⟩ := exec_through h0 h5
  refine ⟨e, n, h0, fair_of_end e hN (Split.over_stuck (by decide +kernel) (by decide +kernel) (by decide +kernel) (by decide +kernel) _ (by simp)),
    fairSource_of_end (N := Split.pongedDay.hb.passed.length) fun m => ?_, by rw [hn]; decide⟩
  rw [← hN _ (Nat.le_max_right m N)]
  exact (Split.inside_hb.passed_mono e (Nat.le_max_left m N)).length_le

end Xeus
