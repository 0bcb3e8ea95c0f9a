import Verif.Kernels.Servers
import Verif.Kernels.Sample
import Verif.Kernels.DemoProps

/-!
# Kernels that neither fail nor get stuck: the properties
-/

namespace Xeus

open Spec K Kernels

variable {σ : Type}

/-! ## C93: nothing fails -/

/-- C93: with an interpreter that ends and throws only `std::exception`s, and messages that are not malformed in certain ways, no
handler fails under any interleaving: whenever a thread has nothing left to do, it has finished normally. -/
theorem C93_parallel (env : Env) [Steady env] (hs : Sane env) (I : Interp σ) (hI : Tame env.eh I) (st : Start σ) (hb : Blank st) (s : Conc σ)
    (h : CReach env I st s) (ht : Traffic env st (arrived s)) (t : Chan) (r : Res Unit) (hd : s.prog t = .done r) :
    r = .ok () := by
  obtain ⟨n, k, h1, _⟩ := (sinv_reach (halt := True) (keep := False) hs hI False.elim hb h ht.2 ht.1 fun _ _ _ => trivial).sure
  have := h1 t
  rw [hd] at this
  cases r with
  | ok _ => rfl
  | exc e => obtain ⟨_, _, _, h, _⟩ := this; cases h
  | ub _ => exact this.elim
  | hang => exact this.elim

/-- An interpreter that refuses every cell. -/
example (eh : ErrH) : Tame eh { demo with execute := fun _ _ _ _ _ _ => .throw .outOfRange } ∧
    ¬ Plain eh { demo with execute := fun _ _ _ _ _ _ => .throw .outOfRange } := by
  have h : Tame eh demo := (C95_demo_safe eh).1.mono False.elim
  refine ⟨⟨fun _ _ _ _ _ _ _ _ _ => ⟨trivial, rfl⟩, h.complete, h.inspect, h.isComplete, h.kernelInfo, h.shutdown, h.debug⟩, fun h => ?_⟩
  exact (h.execute 0 [] true true (.obj []) true (by decide) (utf8_lit (s := "") (by decide)) ⟨by decide, (jsonUtf8_iff _).2 (by decide)⟩).1

/-- Two messages, one of them of a comm without target, have been handled beside a third. -/
example : Sane demoEnv ∧ Tame demoEnv.eh demo ∧ Blank (Start.fresh ()) ∧ CReach demoEnv demo (Start.fresh ()) demoStop.c ∧
    Traffic demoEnv (Start.fresh ()) (arrived demoStop.c) ∧ demoStop.c.prog .shell = .done (.ok ()) := by
  obtain ⟨_, _, _, _, _, _, _, hs⟩ := demo_ok
  have hT : Tame demoEnv.eh demo := (C95_demo_safe demoEnv.eh).1.mono False.elim
  have hr : Main.Reach demoEnv demo (Start.fresh ()) demoStop := Main.reach_choose _
  obtain ⟨h1, h2⟩ := Main.arrived_reach hr
  refine ⟨hs, hT, blank_fresh.1, (Main.kinv_reach hr).conc, ⟨fun q hq => demoStop_traffic.1.1 q ((h2 q).1 hq), by rw [h1]; exact demoStop_traffic.1.2⟩, ?_⟩
  exact done_of (by decide +kernel)

/-- C93 for the default server. -/
theorem C93_server (env : Env) [Steady env] (hs : Sane env) (I : Interp σ) (hI : Tame env.eh I) (st : Start σ) (hb : Blank st) (s : Main σ)
    (h : Main.Reach env I st s) (ht : Traffic env st (arrivals s.log)) (t : Chan) (r : Res Unit) (hd : s.c.prog t = .done r) :
    r = .ok () := by
  obtain ⟨h1, h2⟩ := Main.arrived_reach h
  exact C93_parallel env hs I hI st hb s.c (Main.kinv_reach h).conc
    ⟨fun q hq => ht.1 q ((h2 q).1 hq), by rw [h1]; exact ht.2⟩ t r hd

/-- The same, and at last a request to stop. -/
example : Main.Reach demoEnv demo (Start.fresh ()) demoStop ∧ Traffic demoEnv (Start.fresh ()) (arrivals demoStop.log) ∧
    (arrivals demoStop.log).length = 4 ∧ demoStop.c.prog .control = .done (.ok ()) :=
  ⟨Main.reach_choose _, demoStop_traffic.1, by decide +kernel, done_of (by decide +kernel)⟩

/-- C93 for the split servers. -/
theorem C93_split (env : Env) [Steady env] (hs : Sane env) (I : Interp σ) (hI : Tame env.eh I) (st : Start σ) (hb : Blank st) (s : Split σ)
    (h : Split.Reach env I st s) (ht : Traffic env st (arrivals s.log)) (t : Chan) (r : Res Unit) (hd : s.c.prog t = .done r) :
    r = .ok () := by
  obtain ⟨h1, h2⟩ := Split.arrived_reach h
  exact C93_parallel env hs I hI st hb s.c (Split.kinv_reach h).conc
    ⟨fun q hq => ht.1 q ((h2 q).1 hq), by rw [h1]; exact ht.2⟩ t r hd

/-- The same with two threads. -/
example : Sane testSplitEnv ∧ Tame testSplitEnv.eh testing ∧ Blank testStart ∧ Split.Reach testSplitEnv testing testStart splitStop ∧
    Traffic testSplitEnv testStart (arrivals splitStop.log) ∧ splitStop.c.prog .control = .done (.ok ()) := by
  obtain ⟨_, _, _, _, _, _, _, hs⟩ := testSplit_ok
  exact ⟨hs, (C95_test_safe testSplitEnv.eh).1.mono False.elim, blank_fresh.2, Split.reach_choose _, demoStop_traffic.2, done_of (by decide +kernel)⟩

/-- C93: whatever is recorded of the handlers, exceptions leave user code only if the interpreter may throw, messages are aborted only if
the interpreter may report errors, and the server is asked to stop only if a shutdown request arrived. -/
theorem C93_log (env : Env) [Steady env] (hs : Sane env) (I : Interp σ) (hI : Tame env.eh I) (st : Start σ) (hb : Blank st) (s : Conc σ)
    (h : CReach env I st s) (ht : Traffic env st (arrived s)) :
    (Plain env.eh I → ∀ t e, Act.did t (.threw e) ∉ s.log) ∧ (Cheerful I → ∀ t q, Act.drained t q ∉ s.log) ∧
    ((∃ t, Act.did t .stop ∈ s.log) ∨ stopAsked s.w → ∃ q ∈ arrived s, Shuts env q) := by
  refine ⟨fun hP t e he => ?_, fun hC => ?_, fun hstop => ?_⟩
  · exact ((sinv_reach (halt := True) (keep := False) hs hP False.elim hb h ht.2 ht.1 fun _ _ _ => trivial).calm t _ he).1 e rfl
  · exact (sinv_reach (halt := True) (keep := True) hs hI (fun _ => hC) hb h ht.2 ht.1 fun _ _ _ => trivial).kept trivial
  · have hi := sinv_reach (halt := ∃ q ∈ arrived s, Shuts env q) (keep := False) hs hI False.elim hb h ht.2 ht.1
      fun q hq hs => ⟨q, hq, hs⟩
    rcases hstop with ⟨t, ht⟩ | hstop
    · exact (hi.calm t _ ht).2 rfl
    · exact (hi.placid.calm _ hstop).2 rfl

/-- The example interpreter, asked to stop. -/
example : Plain demoEnv.eh demo ∧ Cheerful demo ∧ stopAsked demoStop.c.w :=
  ⟨(C95_demo_safe _).1, (C95_demo_safe demoEnv.eh).2.2, by unfold stopAsked; decide +kernel⟩

/-- C93: the default server goes on until a shutdown request arrives. -/
theorem C93_stop (env : Env) [Steady env] (hs : Sane env) (I : Interp σ) (hI : Tame env.eh I) (st : Start σ) (hb : Blank st) (s : Main σ)
    (h : Main.Reach env I st s) (ht : Traffic env st (arrivals s.log)) (hstop : stopAsked s.c.w) :
    ∃ q ∈ arrivals s.log, Shuts env q := by
  obtain ⟨h1, h2⟩ := Main.arrived_reach h
  obtain ⟨q, hq, hq'⟩ := (C93_log env hs I hI st hb s.c (Main.kinv_reach h).conc
    ⟨fun q hq => ht.1 q ((h2 q).1 hq), by rw [h1]; exact ht.2⟩).2.2 (.inr hstop)
  exact ⟨q, (h2 q).1 hq, hq'⟩

/-- The server was asked to stop. -/
example : Main.Reach demoEnv demo (Start.fresh ()) demoStop ∧ Traffic demoEnv (Start.fresh ()) (arrivals demoStop.log) ∧ stopAsked demoStop.c.w :=
  ⟨Main.reach_choose _, demoStop_traffic.1, by unfold stopAsked; decide +kernel⟩

/-- C93: so do both threads of the split servers. -/
theorem C93_split_stop (env : Env) [Steady env] (hs : Sane env) (I : Interp σ) (hI : Tame env.eh I) (st : Start σ) (hb : Blank st) (s : Split σ)
    (h : Split.Reach env I st s) (ht : Traffic env st (arrivals s.log)) (hstop : s.flag = true ∨ s.kpc = .over ∨ s.spc = .over) :
    ∃ q ∈ arrivals s.log, Shuts env q := by
  obtain ⟨h1, h2⟩ := Split.arrived_reach h
  by_cases hn : Ev.stop ∈ s.c.w.out
  · obtain ⟨q, hq, hq'⟩ := (C93_log env hs I hI st hb s.c (Split.kinv_reach h).conc
      ⟨fun q hq => ht.1 q ((h2 q).1 hq), by rw [h1]; exact ht.2⟩).2.2 (.inr hn)
    exact ⟨q, (h2 q).1 hq, hq'⟩
  · obtain ⟨g1, g2, _, g4⟩ := Split.up_reach h hn
    rcases hstop with h | h | h
    · rw [g1] at h; cases h
    · simp [h] at g2
    · simp [h] at g4

/-- The control thread has left its loop. -/
example : Split.Reach testSplitEnv testing testStart splitStop ∧ Traffic testSplitEnv testStart (arrivals splitStop.log) ∧ splitStop.flag = true :=
  ⟨Split.reach_choose _, demoStop_traffic.2, by decide +kernel⟩

/-! ## C94: every request is answered -/

section
variable (env : Env) (hs : Sane env) (I : Interp σ) (hI : Plain env.eh I) (hA : Answers env.eh I) (st : Start σ) (hb : Blank st)
include hs hI hA hb

theorem replied_main [Reliable env] {s : Main σ} (h : Main.Reach env I st s) (ht : Traffic env st (arrivals s.log)) (hi : Idle s) {t : Chan} {k : Nat}
    {q : Multipart} (hq : (takenFrom t s.log)[k]? = some q) {m : XMessage} {r : Req} (ha : Accepted env.C env.J env.auth q m)
    (hr : IsReq m r) (hd : Documented m.body.content r) :
    (∃ ab, Replied env s.log t k q m r ab ∧ (Cheerful I → ab = [])) ∨ (t = .shell ∧ AbortedBy env s.log k q m ∧ ¬ Cheerful I) := by
  obtain ⟨h1, h2⟩ := Main.arrived_reach h
  have ht' : Traffic env st (arrived s.c) := ⟨fun q hq => ht.1 q ((h2 q).1 hq), by rw [h1]; exact ht.2⟩
  have hkc := (Main.kinv_reach h).conc
  have hidle : ∀ t, s.c.prog t = .done (.ok ()) := fun t => by
    cases t with
    | control => exact (Main.kinv_reach h).idleC hi.1
    | shell => exact (Main.kinv_reach h).idleS hi.2
  have took : ∀ l₀ l, (takenFrom t l₀).length = k → s.log = l₀ ++ .act (.took t q) :: l →
      ∃ ab, Replied env s.log t k q m r ab ∧ (Cheerful I → ab = []) := by
    rintro l₀ l rfl heq
    exact replied_log (keep := Cheerful I) (halt := True) hs hI (fun h => h) (fun h => h) hA hb hkc ht'.2 ht'.1 (fun _ _ _ => trivial)
      (Main.acts_reach h) (hidle t) heq ha hr hd
  cases t with
  | control =>
    obtain ⟨l₀, l, g1, g2⟩ := takenFrom_split_control hq
    exact .inl (took l₀ l g1 g2)
  | shell =>
    obtain ⟨l₀, l, g1, g2 | ⟨c, g2⟩⟩ := takenFrom_split hq
    · exact .inl (took l₀ l g1 g2)
    · refine .inr ⟨rfl, ?_, fun hC => ?_⟩
      · subst g1
        exact aborted_log hs hkc (Main.acts_reach h) (hidle c) g2 ha
      · refine (sinv_reach (halt := True) (keep := True) hs hI (fun _ => hC) hb hkc ht'.2 ht'.1 fun _ _ _ => trivial).kept trivial c q ?_
        rw [← Main.acts_reach h, g2]
        simp [actsIn_append, actsIn]

theorem replied_split [Reliable env] {s : Split σ} (h : Split.Reach env I st s) (ht : Traffic env st (arrivals s.log)) {t : Chan} {q : Multipart}
    {l₀ l : List SEv} {x : Act} (hx : x = .took t q ∨ x = .drained t q) (heq : s.log = l₀ ++ .act x :: l) (hfree : Split.Free s t)
    {m : XMessage} {r : Req} (ha : Accepted env.C env.J env.auth q m) (hr : IsReq m r) (hd : Documented m.body.content r) :
    (x = .took t q ∧ ∃ ab, Replied env s.log t (takenFrom t l₀).length q m r ab ∧ (Cheerful I → ab = [])) ∨
      (x = .drained t q ∧ AbortedBy env s.log (takenFrom .shell l₀).length q m ∧ ¬ Cheerful I) := by
  obtain ⟨h1, h2⟩ := Split.arrived_reach h
  have ht' : Traffic env st (arrived s.c) := ⟨fun q hq => ht.1 q ((h2 q).1 hq), by rw [h1]; exact ht.2⟩
  have hkc := (Split.kinv_reach h).conc
  have hidle : s.c.prog t = .done (.ok ()) := by
    cases t with
    | control => exact (Split.kinv_reach h).idleC hfree
    | shell => exact (Split.kinv_reach h).idleS hfree
  rcases hx with rfl | rfl
  · exact .inl ⟨rfl, replied_log (keep := Cheerful I) (halt := True) hs hI (fun h => h) (fun h => h) hA hb hkc ht'.2 ht'.1
      (fun _ _ _ => trivial) (Split.acts_reach h) hidle heq ha hr hd⟩
  · refine .inr ⟨rfl, aborted_log hs hkc (Split.acts_reach h) hidle heq ha, fun hC => ?_⟩
    refine (sinv_reach (halt := True) (keep := True) hs hI (fun _ => hC) hb hkc ht'.2 ht'.1 fun _ _ _ => trivial).kept trivial t q ?_
    rw [← Split.acts_reach h, heq]
    simp [actsIn_append, actsIn]

end

/-- C94: in every execution that is fair to the main thread, every request with documented fields that arrives on the shell socket is
eventually sent exactly one reply, or aborted, unless a stop is requested before it is received.  If the
interpreter reports no errors, nothing is aborted. -/
theorem C94_shell (env : Env) [Reliable env] (hs : Sane env) (I : Interp σ) (hI : Plain env.eh I) (hA : Answers env.eh I) (st : Start σ) (hb : Blank st)
    (e : Execution (Main.Step env I)) (h0 : e.state 0 = Main.init st) (hf : Fair e .main)
    (ht : ∀ i, Traffic env st (arrivals (e.state i).log)) (n k : Nat) (q : Multipart)
    (hq : (arrivedOn .shell (e.state n).log)[k]? = some q) (m : XMessage) (ha : Accepted env.C env.J env.auth q m) (r : Req)
    (hr : IsReq m r) (hd : Documented m.body.content r) :
    ∃ i, n ≤ i ∧ ((∃ ab, Replied env (e.state i).log .shell k q m r ab ∧ (Cheerful I → ab = [])) ∨
      (AbortedBy env (e.state i).log k q m ∧ ¬ Cheerful I) ∨
      (stopAsked (e.state i).c.w ∧ (takenFrom .shell (e.state i).log).length ≤ k)) := by
  have hT : Tame env.eh I := hI.mono False.elim
  have hh : ∀ i, n ≤ i → ∀ t r, (e.state i).c.prog t = .done r → r = .ok () := fun i _ t r hd =>
    C93_server env hs I hT st hb _ (Main.reach_exec e h0 i) (ht i) t r hd
  obtain ⟨i, hi, hi'⟩ := C77_shell env I st e h0 hf n k q hq hh
  obtain ⟨j, hj, hj'⟩ := Main.idle_again e hf i fun m hm => hh m (Nat.le_trans hi hm)
  refine ⟨j, Nat.le_trans hi hj, ?_⟩
  by_cases hk : (takenFrom .shell (e.state j).log)[k]? = some q
  · rcases replied_main env hs I hI hA st hb (Main.reach_exec e h0 j) (ht j) hj' hk ha hr hd with h | ⟨_, h⟩
    · exact .inl h
    · exact .inr (.inl h)
  · have hlen := Main.not_taken h0 (Nat.le_trans hi hj) hq hk
    refine .inr (.inr ⟨?_, hlen⟩)
    rcases hi' with h | h
    · exact absurd (Main.still_taken e hj h) hk
    · exact Main.stopAsked_exec e h0 hj h

/-- A cell sent to the example kernel. -/
example : ∃ (e : Execution (Main.Step demoEnv demo)) (n : Nat), Sane demoEnv ∧ Plain demoEnv.eh demo ∧ Answers demoEnv.eh demo ∧
    Blank (Start.fresh ()) ∧ e.state 0 = Main.init (Start.fresh ()) ∧ Fair e .main ∧
    (∀ i, Traffic demoEnv (Start.fresh ()) (arrivals (e.state i).log)) ∧ (arrivedOn .shell (e.state n).log)[0]? = some (sentTo demoEnv cell) ∧
    Accepted demoEnv.C demoEnv.J demoEnv.auth (sentTo demoEnv cell) cell ∧ IsReq cell .execute ∧ Documented cell.body.content .execute := by
  obtain ⟨_, _, _, _, _, _, _, hs⟩ := demo_ok
  obtain ⟨e, n, h1, h2, h3⟩ := demo_day
  obtain ⟨h4, h5, _⟩ := C95_demo_safe demoEnv.eh
  exact ⟨e, n, hs, h4, h5, blank_fresh.1, h1, h2, h3.traffic, h3.shell, h3.cell, cell_req⟩

/-- C94: the same for the control socket, if the interpreter reports no errors (otherwise the server may stop looking at the control
socket, C74, C77). -/
theorem C94_control (env : Env) [Reliable env] (hs : Sane env) (I : Interp σ) (hI : Plain env.eh I) (hA : Answers env.eh I) (hC : Cheerful I)
    (st : Start σ) (hb : Blank st) (e : Execution (Main.Step env I)) (h0 : e.state 0 = Main.init st) (hf : Fair e .main)
    (ht : ∀ i, Traffic env st (arrivals (e.state i).log)) (n k : Nat) (q : Multipart)
    (hq : (arrivedOn .control (e.state n).log)[k]? = some q) (m : XMessage) (ha : Accepted env.C env.J env.auth q m) (r : Req)
    (hr : IsReq m r) (hd : Documented m.body.content r) :
    ∃ i, n ≤ i ∧ (Replied env (e.state i).log .control k q m r [] ∨
      (stopAsked (e.state i).c.w ∧ (takenFrom .control (e.state i).log).length ≤ k)) := by
  have hT : Tame env.eh I := hI.mono False.elim
  have hh : ∀ i, n ≤ i → ∀ t r, (e.state i).c.prog t = .done r → r = .ok () := fun i _ t r hd =>
    C93_server env hs I hT st hb _ (Main.reach_exec e h0 i) (ht i) t r hd
  have hdr : ∀ i, n ≤ i → ∀ q, SEv.act (.drained .control q) ∉ (e.state i).log := fun i _ q hq => by
    have hr := Main.reach_exec e h0 i
    obtain ⟨h1, h2⟩ := Main.arrived_reach hr
    refine (C93_log env hs I hT st hb _ (Main.kinv_reach hr).conc
      ⟨fun q hq => (ht i).1 q ((h2 q).1 hq), by rw [h1]; exact (ht i).2⟩).2.1 hC .control q ?_
    rw [← Main.acts_reach hr]
    exact mem_actsIn.2 hq
  obtain ⟨i, hi, hi'⟩ := C77_control env I st e h0 hf n k q hq hh hdr
  obtain ⟨j, hj, hj'⟩ := Main.idle_again e hf i fun m hm => hh m (Nat.le_trans hi hm)
  refine ⟨j, Nat.le_trans hi hj, ?_⟩
  by_cases hk : (takenFrom .control (e.state j).log)[k]? = some q
  · rcases replied_main env hs I hI hA st hb (Main.reach_exec e h0 j) (ht j) hj' hk ha hr hd with ⟨ab, h, h'⟩ | ⟨h, _⟩
    · rw [h' hC] at h
      exact .inl h
    · cases h
  · have hlen := Main.not_taken h0 (Nat.le_trans hi hj) hq hk
    refine .inr ⟨?_, hlen⟩
    rcases hi' with h | h
    · exact absurd (Main.still_taken e hj h) hk
    · exact Main.stopAsked_exec e h0 hj h

/-- A request for information sent to the example kernel. -/
example : ∃ (e : Execution (Main.Step demoEnv demo)) (n : Nat), Cheerful demo ∧ e.state 0 = Main.init (Start.fresh ()) ∧ Fair e .main ∧
    (∀ i, Traffic demoEnv (Start.fresh ()) (arrivals (e.state i).log)) ∧ (arrivedOn .control (e.state n).log)[0]? = some (sentTo demoEnv infoReq) ∧
    Accepted demoEnv.C demoEnv.J demoEnv.auth (sentTo demoEnv infoReq) infoReq ∧ IsReq infoReq .kernelInfo ∧
    Documented infoReq.body.content .kernelInfo := by
  obtain ⟨e, n, h1, h2, h3⟩ := demo_day
  exact ⟨e, n, (C95_demo_safe demoEnv.eh).2.2, h1, h2, h3.traffic, h3.control, h3.info, infoReq_req⟩

/-- C94 for the split servers: in every execution that is fair to the two threads, every request with documented fields that arrives
on the shell socket is eventually sent exactly one reply, or aborted, unless the shell thread ends before it is received.  If
the interpreter reports no errors, nothing is aborted. -/
theorem C94_split_shell (env : Env) [Reliable env] (hs : Sane env) (I : Interp σ) (hI : Plain env.eh I) (hA : Answers env.eh I) (st : Start σ)
    (hb : Blank st) (e : Execution (Split.Step env I)) (h0 : e.state 0 = Split.init st) (hfs : Fair e .shell) (hfc : Fair e .control)
    (ht : ∀ i, Traffic env st (arrivals (e.state i).log)) (n k : Nat) (q : Multipart)
    (hq : (arrivedOn .shell (e.state n).log)[k]? = some q) (m : XMessage) (ha : Accepted env.C env.J env.auth q m) (r : Req)
    (hr : IsReq m r) (hd : Documented m.body.content r) :
    ∃ i, n ≤ i ∧ ((∃ ab, Replied env (e.state i).log .shell k q m r ab ∧ (Cheerful I → ab = [])) ∨
      (AbortedBy env (e.state i).log k q m ∧ ¬ Cheerful I) ∨
      ((e.state i).spc = .over ∧ (takenFrom .shell (e.state i).log).length ≤ k)) := by
  have hT : Tame env.eh I := hI.mono False.elim
  have hh : ∀ i, n ≤ i → ∀ t r, (e.state i).c.prog t = .done r → r = .ok () := fun i _ t r hd =>
    C93_split env hs I hT st hb _ (Split.reach_exec e h0 i) (ht i) t r hd
  have hfair : ∀ t, Fair e (Split.reader t) := fun t => by cases t <;> assumption
  have taken : ∀ i, n ≤ i → (takenFrom .shell (e.state i).log)[k]? = some q → ∃ j, n ≤ j ∧
      ((∃ ab, Replied env (e.state j).log .shell k q m r ab ∧ (Cheerful I → ab = [])) ∨
        (AbortedBy env (e.state j).log k q m ∧ ¬ Cheerful I)) := by
    intro i hi hk
    obtain ⟨l₀, l, h1, h2⟩ := takenFrom_split hk
    subst h1
    have key : ∀ c x, (x = Act.took c q ∨ x = .drained c q) → (e.state i).log = l₀ ++ .act x :: l → ∃ j, i ≤ j ∧
        ((x = .took c q ∧ ∃ ab, Replied env (e.state j).log c (takenFrom c l₀).length q m r ab ∧ (Cheerful I → ab = [])) ∨
          (x = .drained c q ∧ AbortedBy env (e.state j).log (takenFrom .shell l₀).length q m ∧ ¬ Cheerful I)) := by
      intro c x hx heq
      obtain ⟨j, hj, hfree⟩ := Split.free_again e c (hfair _) i fun x hx => hh x (Nat.le_trans hi hx)
      obtain ⟨y, hy⟩ := Split.log_exec e hj
      exact ⟨j, hj, replied_split env hs I hI hA st hb (Split.reach_exec e h0 j) (ht j) hx (l := l ++ y)
        (by rw [← hy, heq]; simp) hfree ha hr hd⟩
    rcases h2 with h2 | ⟨c, h2⟩
    · obtain ⟨j, hj, ⟨_, h⟩ | ⟨h, _⟩⟩ := key .shell _ (.inl rfl) h2
      · exact ⟨j, Nat.le_trans hi hj, .inl h⟩
      · cases h
    · obtain ⟨j, hj, ⟨h, _⟩ | ⟨_, h⟩⟩ := key c _ (.inr rfl) h2
      · cases h
      · exact ⟨j, Nat.le_trans hi hj, .inr h⟩
  obtain ⟨i, hi, hi' | hi'⟩ := C77_split_shell env I st e h0 hfs n k q hq hh
  · obtain ⟨j, hj, h⟩ := taken i hi hi'
    exact ⟨j, hj, h.elim .inl fun h => .inr (.inl h)⟩
  · by_cases hk : (takenFrom .shell (e.state i).log)[k]? = some q
    · obtain ⟨j, hj, h⟩ := taken i hi hk
      exact ⟨j, hj, h.elim .inl fun h => .inr (.inl h)⟩
    · exact ⟨i, hi, .inr (.inr ⟨hi', Split.not_taken h0 hi hq hk⟩)⟩

/-- A cell sent to the test kernel with two threads. -/
example : ∃ (e : Execution (Split.Step testSplitEnv testing)) (n : Nat), Sane testSplitEnv ∧ Plain testSplitEnv.eh testing ∧
    Answers testSplitEnv.eh testing ∧ Blank testStart ∧ e.state 0 = Split.init testStart ∧ Fair e .shell ∧ Fair e .control ∧
    (∀ i, Traffic testSplitEnv testStart (arrivals (e.state i).log)) ∧
    (arrivedOn .shell (e.state n).log)[0]? = some (sentTo testSplitEnv cell) ∧
    Accepted testSplitEnv.C testSplitEnv.J testSplitEnv.auth (sentTo testSplitEnv cell) cell ∧ IsReq cell .execute ∧
    Documented cell.body.content .execute := by
  obtain ⟨_, _, _, _, _, _, _, hs⟩ := testSplit_ok
  obtain ⟨e, n, h1, h2, h2', h3⟩ := split_day
  obtain ⟨h4, h5, _⟩ := C95_test_safe testSplitEnv.eh
  exact ⟨e, n, hs, h4, h5, blank_fresh.2, h1, h2, h2', h3.traffic, h3.shell, h3.cell, cell_req⟩

/-- C94 for the split servers: the same for the control socket, until a stop is requested.  Control messages are never aborted. -/
theorem C94_split_control (env : Env) [Reliable env] (hs : Sane env) (I : Interp σ) (hI : Plain env.eh I) (hA : Answers env.eh I) (st : Start σ)
    (hb : Blank st) (e : Execution (Split.Step env I)) (h0 : e.state 0 = Split.init st) (hf : Fair e .control)
    (ht : ∀ i, Traffic env st (arrivals (e.state i).log)) (n k : Nat) (q : Multipart)
    (hq : (arrivedOn .control (e.state n).log)[k]? = some q) (m : XMessage) (ha : Accepted env.C env.J env.auth q m) (r : Req)
    (hr : IsReq m r) (hd : Documented m.body.content r) :
    ∃ i, n ≤ i ∧ ((∃ ab, Replied env (e.state i).log .control k q m r ab ∧ (Cheerful I → ab = [])) ∨
      ((e.state i).flag = true ∧ (e.state i).kpc ≠ .entry ∧ (takenFrom .control (e.state i).log).length ≤ k)) := by
  have hT : Tame env.eh I := hI.mono False.elim
  have hh : ∀ i, n ≤ i → ∀ t r, (e.state i).c.prog t = .done r → r = .ok () := fun i _ t r hd =>
    C93_split env hs I hT st hb _ (Split.reach_exec e h0 i) (ht i) t r hd
  have taken : ∀ i, n ≤ i → (takenFrom .control (e.state i).log)[k]? = some q → ∃ j, n ≤ j ∧
      ∃ ab, Replied env (e.state j).log .control k q m r ab ∧ (Cheerful I → ab = []) := by
    intro i hi hk
    obtain ⟨l₀, l, h1, h2⟩ := takenFrom_split_control hk
    subst h1
    obtain ⟨j, hj, hfree⟩ := Split.free_again e .control hf i fun x hx => hh x (Nat.le_trans hi hx)
    obtain ⟨y, hy⟩ := Split.log_exec e hj
    rcases replied_split env hs I hI hA st hb (Split.reach_exec e h0 j) (ht j) (x := .took .control q) (l₀ := l₀) (.inl rfl) (l := l ++ y)
      (by rw [← hy, h2]; simp) hfree ha hr hd with ⟨_, h⟩ | ⟨h, _⟩
    · exact ⟨j, Nat.le_trans hi hj, h⟩
    · cases h
  obtain ⟨i, hi, hi' | hi'⟩ := C77_split_control env I st e h0 hf n k q hq hh
  · obtain ⟨j, hj, h⟩ := taken i hi hi'
    exact ⟨j, hj, .inl h⟩
  · by_cases hk : (takenFrom .control (e.state i).log)[k]? = some q
    · obtain ⟨j, hj, h⟩ := taken i hi hk
      exact ⟨j, hj, .inl h⟩
    · exact ⟨i, hi, .inr ⟨hi'.1, hi'.2, Split.not_taken h0 hi hq hk⟩⟩

/-- A request for information sent to the test kernel with two threads. -/
example : ∃ (e : Execution (Split.Step testSplitEnv testing)) (n : Nat), e.state 0 = Split.init testStart ∧ Fair e .control ∧
    (∀ i, Traffic testSplitEnv testStart (arrivals (e.state i).log)) ∧
    (arrivedOn .control (e.state n).log)[0]? = some (sentTo testSplitEnv infoReq) ∧
    Accepted testSplitEnv.C testSplitEnv.J testSplitEnv.auth (sentTo testSplitEnv infoReq) infoReq ∧ IsReq infoReq .kernelInfo ∧
    Documented infoReq.body.content .kernelInfo := by
  obtain ⟨e, n, h1, h2, h2', h3⟩ := split_day
  exact ⟨e, n, h1, h2', h3.traffic, h3.control, h3.info, infoReq_req⟩

/-- C94: if moreover the interpreter reports no errors and nobody asks the default server to shut down, every request on either socket
is eventually sent exactly one reply. -/
theorem C94_always (env : Env) [Reliable env] (hs : Sane env) (I : Interp σ) (hI : Plain env.eh I) (hA : Answers env.eh I) (hC : Cheerful I)
    (st : Start σ) (hb : Blank st) (e : Execution (Main.Step env I)) (h0 : e.state 0 = Main.init st) (hf : Fair e .main)
    (ht : ∀ i, Traffic env st (arrivals (e.state i).log)) (hn : ∀ i, ∀ q ∈ arrivals (e.state i).log, ¬ Shuts env q) (n k : Nat)
    (c : Chan) (q : Multipart) (hq : (arrivedOn c (e.state n).log)[k]? = some q) (m : XMessage)
    (ha : Accepted env.C env.J env.auth q m) (r : Req) (hr : IsReq m r) (hd : Documented m.body.content r) :
    ∃ i, n ≤ i ∧ Replied env (e.state i).log c k q m r [] := by
  have up : ∀ i, ¬ stopAsked (e.state i).c.w := fun i h => by
    obtain ⟨q, h1, h2⟩ := C93_stop env hs I (hI.mono False.elim) st hb _ (Main.reach_exec e h0 i) (ht i) h
    exact hn i q h1 h2
  cases c with
  | control =>
    obtain ⟨i, hi, h | h⟩ := C94_control env hs I hI hA hC st hb e h0 hf ht n k q hq m ha r hr hd
    · exact ⟨i, hi, h⟩
    · exact absurd h.1 (up i)
  | shell =>
    obtain ⟨i, hi, ⟨ab, h, h'⟩ | h | h⟩ := C94_shell env hs I hI hA st hb e h0 hf ht n k q hq m ha r hr hd
    · exact ⟨i, hi, h' hC ▸ h⟩
    · exact absurd hC h.2
    · exact absurd h.1 (up i)

/-- No request to stop is among the messages. -/
example : ∃ (e : Execution (Main.Step demoEnv demo)) (n : Nat), e.state 0 = Main.init (Start.fresh ()) ∧ Fair e .main ∧
    (∀ i, Traffic demoEnv (Start.fresh ()) (arrivals (e.state i).log)) ∧ (∀ i, ∀ q ∈ arrivals (e.state i).log, ¬ Shuts demoEnv q) ∧
    (arrivedOn .shell (e.state n).log)[0]? = some (sentTo demoEnv cell) := by
  obtain ⟨e, n, h1, h2, h3⟩ := demo_day
  exact ⟨e, n, h1, h2, h3.traffic, h3.quiet, h3.shell⟩

/-- C94: and so it is with the split servers. -/
theorem C94_split_always (env : Env) [Reliable env] (hs : Sane env) (I : Interp σ) (hI : Plain env.eh I) (hA : Answers env.eh I) (hC : Cheerful I)
    (st : Start σ) (hb : Blank st) (e : Execution (Split.Step env I)) (h0 : e.state 0 = Split.init st) (hfs : Fair e .shell)
    (hfc : Fair e .control) (ht : ∀ i, Traffic env st (arrivals (e.state i).log))
    (hn : ∀ i, ∀ q ∈ arrivals (e.state i).log, ¬ Shuts env q) (n k : Nat)
    (c : Chan) (q : Multipart) (hq : (arrivedOn c (e.state n).log)[k]? = some q) (m : XMessage)
    (ha : Accepted env.C env.J env.auth q m) (r : Req) (hr : IsReq m r) (hd : Documented m.body.content r) :
    ∃ i, n ≤ i ∧ Replied env (e.state i).log c k q m r [] := by
  have up : ∀ i, ¬ ((e.state i).flag = true ∨ (e.state i).kpc = .over ∨ (e.state i).spc = .over) := fun i h => by
    obtain ⟨q, h1, h2⟩ := C93_split_stop env hs I (hI.mono False.elim) st hb _ (Split.reach_exec e h0 i) (ht i) h
    exact hn i q h1 h2
  cases c with
  | control =>
    obtain ⟨i, hi, ⟨ab, h, h'⟩ | h⟩ := C94_split_control env hs I hI hA st hb e h0 hfc ht n k q hq m ha r hr hd
    · exact ⟨i, hi, h' hC ▸ h⟩
    · exact absurd (.inl h.1) (up i)
  | shell =>
    obtain ⟨i, hi, ⟨ab, h, h'⟩ | h | h⟩ := C94_split_shell env hs I hI hA st hb e h0 hfs hfc ht n k q hq m ha r hr hd
    · exact ⟨i, hi, h' hC ▸ h⟩
    · exact absurd hC h.2
    · exact absurd (.inr (.inr h.1)) (up i)

example : ∃ (e : Execution (Split.Step testSplitEnv testing)) (n : Nat), Cheerful testing ∧ e.state 0 = Split.init testStart ∧
    Fair e .shell ∧ Fair e .control ∧ (∀ i, Traffic testSplitEnv testStart (arrivals (e.state i).log)) ∧
    (∀ i, ∀ q ∈ arrivals (e.state i).log, ¬ Shuts testSplitEnv q) ∧
    (arrivedOn .control (e.state n).log)[0]? = some (sentTo testSplitEnv infoReq) := by
  obtain ⟨e, n, h1, h2, h2', h3⟩ := split_day
  exact ⟨e, n, (C95_test_safe testSplitEnv.eh).2.2, h1, h2, h2', h3.traffic, h3.quiet, h3.control⟩

end Xeus
