import Verif.Kernels.SureInv
import Verif.Server.SplitAnswers
import Verif.History.Props

/-!
# Servers without failure: lemmas
-/

namespace Xeus

open Spec K

variable {σ : Type} {env : Env} {I : Interp σ}

/-! ## What arrived -/

theorem received_acts (l : List SEv) :
    (received (actsIn l)).length = (takenFrom .shell l).length + (takenFrom .control l).length ∧
      ∀ q, q ∈ received (actsIn l) ↔ q ∈ takenFrom .shell l ∨ q ∈ takenFrom .control l := by
  induction l with
  | nil => simp [actsIn, received, takenFrom]
  | cons x l ih =>
    obtain ⟨h1, h2⟩ := ih
    cases x with
    | act y =>
      cases y with
      | took c q =>
        cases c <;> simp only [actsIn, received, takenFrom, reduceCtorEq, if_true, if_false, List.length_cons, List.mem_cons, h2] <;>
          exact ⟨by omega, fun x => by simp only [or_assoc, or_left_comm]⟩
      | drained c q =>
        simp only [actsIn, received, takenFrom, reduceCtorEq, if_true, if_false, List.length_cons, List.mem_cons, h2]
        exact ⟨by omega, fun x => by simp only [or_assoc]⟩
      | did c e => exact ⟨h1, h2⟩
    | _ => exact ⟨h1, h2⟩

theorem arrived_log {log : List SEv} {c : Conc σ} (ha : actsIn log = c.log)
    (hc : takenFrom .control log ++ c.controlQ = arrivedOn .control log)
    (hs : takenFrom .shell log ++ c.w.shellQ = arrivedOn .shell log) :
    (arrived c).length = (arrivals log).length ∧ ∀ q, q ∈ arrived c ↔ q ∈ arrivals log := by
  obtain ⟨h1, h2⟩ := received_acts log
  constructor
  · simp only [arrived, arrivals, ← hc, ← hs, ← ha, List.length_append]
    omega
  · intro q
    simp only [arrived, arrivals, ← hc, ← hs, ← ha, List.mem_append, h2]
    constructor
    · rintro (((h | h) | h) | h) <;> simp [h]
    · rintro ((h | h) | h | h) <;> simp [h]

namespace Main

theorem step_conc {st : Start σ} {s s' : Main σ} {a : Who} (hr : Reach env I st s) (h : Step env I a s s') :
    s'.c = s.c ∨ CStep env I s.c s'.c := by
  obtain ⟨_, h2, h3⟩ := kinv_reach hr
  cases h with
  | arriveShell _ q => exact .inr (.arriveShell _ q)
  | arriveControl _ q => exact .inr (.arriveControl _ q)
  | arriveStdin _ q => exact .inr (.arriveStdin _ q)
  | takeControl _ rs q r hp hq => exact .inr (.takeControl _ q r (h2 (by simp [hp])) hq)
  | workControl _ rs p w' keep hp hs _ => exact .inr (.act _ .control p w' hs)
  | takeShell _ q r hp hq => exact .inr (.takeShell _ q r (h3 (by simp [hp])) hq)
  | workShell _ p w' keep hp hs _ => exact .inr (.act _ .shell p w' hs)
  | _ => exact .inl rfl

theorem acts_reach {st : Start σ} {s : Main σ} (h : Reach env I st s) : actsIn s.log = s.c.log := by
  induction h with
  | start => rfl
  | step _ hs ih =>
    cases hs with
    | workControl _ rs p w' keep hp hs _ => simp only [Main.work, actsIn_append, actsIn_map, ih]
    | workShell _ p w' keep hp hs _ => simp only [Main.work, actsIn_append, actsIn_map, ih]
    | _ => first | exact ih | (simp only [actsIn_append, ih]; first | rfl | simp [actsIn])

theorem arrived_reach {st : Start σ} {s : Main σ} (h : Reach env I st s) :
    (arrived s.c).length = (arrivals s.log).length ∧ ∀ q, q ∈ arrived s.c ↔ q ∈ arrivals s.log :=
  arrived_log (acts_reach h) (qinv_reach h).control (qinv_reach h).shell

/-- A message not received yet. -/
theorem not_taken {st : Start σ} {e : Execution (Step env I)} (h0 : e.state 0 = init st) {n j k : Nat} (hj : n ≤ j) {c : Chan}
    {q : Multipart} (hq : (arrivedOn c (e.state n).log)[k]? = some q) (hk : ¬ (takenFrom c (e.state j).log)[k]? = some q) :
    (takenFrom c (e.state j).log).length ≤ k := by
  apply Nat.not_lt.1
  intro hlt
  refine hk ?_
  have hi := qinv_reach (reach_exec e h0 j)
  obtain ⟨x, hx⟩ := log_exec e hj
  obtain ⟨hk', _⟩ := List.getElem?_eq_some_iff.1 hq
  have h2 : (arrivedOn c (e.state j).log)[k]? = some q := by
    rw [← hx, arrivedOn_append, List.getElem?_append_left hk']; exact hq
  cases c with
  | control => rw [← hi.control, List.getElem?_append_left hlt] at h2; exact h2
  | shell => rw [← hi.shell, List.getElem?_append_left hlt] at h2; exact h2

theorem still_taken (e : Execution (Step env I)) {i j k : Nat} (hj : i ≤ j) {c : Chan} {q : Multipart}
    (hk : (takenFrom c (e.state i).log)[k]? = some q) : (takenFrom c (e.state j).log)[k]? = some q := by
  obtain ⟨x, hx⟩ := log_exec e hj
  obtain ⟨hk', _⟩ := List.getElem?_eq_some_iff.1 hk
  rw [← hx, takenFrom_append, List.getElem?_append_left hk']
  exact hk

end Main

namespace Split

/-- A message not received yet. -/
theorem not_taken {st : Start σ} {e : Execution (Step env I)} (h0 : e.state 0 = init st) {n j k : Nat} (hj : n ≤ j) {c : Chan}
    {q : Multipart} (hq : (arrivedOn c (e.state n).log)[k]? = some q) (hk : ¬ (takenFrom c (e.state j).log)[k]? = some q) :
    (takenFrom c (e.state j).log).length ≤ k := by
  apply Nat.not_lt.1
  intro hlt
  refine hk ?_
  have hi := qinv_reach (reach_exec e h0 j)
  obtain ⟨x, hx⟩ := log_exec e hj
  obtain ⟨hk', _⟩ := List.getElem?_eq_some_iff.1 hq
  have h2 : (arrivedOn c (e.state j).log)[k]? = some q := by
    rw [← hx, arrivedOn_append, List.getElem?_append_left hk']; exact hq
  cases c with
  | control => rw [← hi.control, List.getElem?_append_left hlt] at h2; exact h2
  | shell => rw [← hi.shell, List.getElem?_append_left hlt] at h2; exact h2

theorem arrived_reach {st : Start σ} {s : Split σ} (h : Reach env I st s) :
    (arrived s.c).length = (arrivals s.log).length ∧ ∀ q, q ∈ arrived s.c ↔ q ∈ arrivals s.log :=
  arrived_log (acts_reach h) (qinv_reach h).control (qinv_reach h).shell

/-- As long as no stop is requested, the split servers do not end. -/
structure Up (s : Split σ) : Prop where
  flag : s.flag = false
  kpc : s.kpc = .entry ∨ s.kpc = .loop ∨ s.kpc = .recv ∨ s.kpc = .busy
  ctl : s.ctl = false
  spc : s.spc = .poll ∨ (∃ r, s.spc = .sampled r) ∨ (∃ r, s.spc = .ready r false) ∨ s.spc = .busy false ∨ s.spc = .asked false

theorem up_reach {st : Start σ} {s : Split σ} (h : Reach env I st s) (hn : Ev.stop ∉ s.c.w.out) : Up s := by
  induction h with
  | init => exact ⟨rfl, .inl rfl, rfl, .inl rfl⟩
  | step hr hs ih =>
    rename_i s s' a
    have hout : s.c.w.out <+: s'.c.w.out := by
      rcases step_conc hr hs with h | h
      · rw [h]; exact List.prefix_refl _
      · generalize s'.c = c' at h
        cases h with
        | act t p w' hst => exact (creach_kept (kinv_reach hr).conc hst).1
        | _ => exact List.prefix_refl _
    obtain ⟨h1, h2, h3, h4⟩ := ih fun h => hn (hout.subset h)
    have wk : ∀ t p w' keep, s.c.w.out <+: w'.out → Ev.stop ∉ w'.out → Up (s.work t p w' keep) := by
      intro t p w' keep _ hw
      refine ⟨?_, h2, h3, h4⟩
      show (s.flag || decide _) = false
      rw [h1, Bool.false_or, decide_eq_false_iff_not]
      exact fun h => hw (List.mem_of_mem_drop h)
    cases hs with
    | workControl _ p w' keep hp hs _ => exact wk _ _ _ _ hout hn
    | workShell _ r p w' keep hp hs _ => exact wk _ _ _ _ hout hn
    | start _ hp => exact ⟨rfl, .inr (.inl rfl), h3, h4⟩
    | test _ hp hf => exact ⟨h1, .inr (.inr (.inl rfl)), h3, h4⟩
    | leave _ hp hf => rw [h1] at hf; cases hf
    | takeControl _ q r hp hq => exact ⟨h1, .inr (.inr (.inr rfl)), h3, h4⟩
    | doneControl _ hp hd => exact ⟨h1, .inr (.inl rfl), h3, h4⟩
    | stopSh _ hp => simp [hp] at h2
    | waitSh _ hp ha => simp [hp] at h2
    | stopPub _ hp => simp [hp] at h2
    | waitPub _ hp ha => simp [hp] at h2
    | stopHb _ hp => simp [hp] at h2
    | waitHb _ hp ha => simp [hp] at h2
    | notify _ hp => simp [hp] at h2
    | sample0 _ r hp hr => exact ⟨h1, h2, h3, .inr (.inl ⟨r, rfl⟩)⟩
    | sample1 _ r0 hp hr => exact ⟨h1, h2, h3, .inr (.inr (.inl ⟨r0, by rw [h3]⟩))⟩
    | nothing _ hp hr => exact ⟨h1, h2, h3, .inl rfl⟩
    | takeShell _ r1 q r hp hq =>
      have : r1 = false := by simpa [hp] using h4
      subst this
      exact ⟨h1, h2, h3, .inr (.inr (.inr (.inl rfl)))⟩
    | skip _ r1 hp =>
      have : r1 = false := by simpa [hp] using h4
      subst this
      exact ⟨h1, h2, h3, .inr (.inr (.inr (.inr rfl)))⟩
    | doneShell _ r1 hp hd =>
      have : r1 = false := by simpa [hp] using h4
      subst this
      exact ⟨h1, h2, h3, .inr (.inr (.inr (.inr rfl)))⟩
    | again _ hp => exact ⟨h1, h2, h3, .inl rfl⟩
    | recvCtl _ hp => simp [hp] at h4
    | sendCtl _ hp => simp [hp] at h4
    | _ => exact ⟨h1, h2, h3, h4⟩

end Split

/-! ## Interpreters -/

theorem Spec.Mild.mono {α : Type} {eh : ErrH} {thr thr' : Prop} (ht : thr → thr') {p : Prog σ Op α} (h : Mild eh thr p) : Mild eh thr' p := by
  induction p with
  | ret a => trivial
  | throw e => exact ⟨ht h.1, h.2⟩
  | ub s => exact h
  | hang => exact h
  | get k ih => exact fun s => ih s (h s)
  | set s k ih => exact ih h
  | call o k ih =>
    cases o with
    | pub p => exact ⟨ih _ h.1, fun hp => ih _ (h.2 hp)⟩
    | parentHeader => exact fun j hj => ih _ (h j hj)
    | _ => exact h

theorem Spec.MildInterp.mono {eh : ErrH} {thr thr' : Prop} (ht : thr → thr') (h : MildInterp eh thr I) : MildInterp eh thr' I :=
  ⟨fun n c s st e a h1 h2 h3 => (h.execute n c s st e a h1 h2 h3).mono ht, fun c p h1 h2 => (h.complete c p h1 h2).mono ht,
    fun c p d h1 h2 h3 => (h.inspect c p d h1 h2 h3).mono ht, fun c h1 => (h.isComplete c h1).mono ht, h.kernelInfo.mono ht,
    h.shutdown.mono ht, h.debug⟩

/-! ## Answers -/

/-- History requests with documented fields are answered. -/
theorem Yields.mono {Ω α : Type} {P Q : α → Prop} {p : Prog σ Ω α} (h : Yields P p) (hpq : ∀ a, P a → Q a) : Yields Q p := by
  induction p with
  | ret a => exact hpq a h
  | get k ih => exact fun s => ih s (h s)
  | set s k ih => exact ih h
  | call o k ih => exact fun r => ih r (h r)
  | _ => trivial

theorem execFields_parsed {c : Json} (hc : Parsed c) {f : ExecFields} (hf : execFields c = some f) : Utf8 f.code ∧ Parsed f.exprs := by
  simp only [execFields, Option.ite_none_right_eq_some, Option.bind_eq_bind, Option.bind_eq_some_iff, Option.pure_def,
    Option.some.injEq] at hf
  obtain ⟨_, _, h1, _, _, _, _, _, _, _, _, _, _, rfl⟩ := hf
  exact ⟨parsed_str hc (utf8_lit (by decide)) h1, parsed_json hc ⟨by decide, .obj (by simp) (by simp)⟩⟩

theorem obliging_of [Reliable env] (hs : Sane env) (hA : Answers env.eh I) {m : XMessage} {r : Req} (hc : Parsed m.body.content)
    (hd : Documented m.body.content r) {ts : List Str} (hh : Harmless ts m.body.content r) {thr halt : Prop} {c₀ : Comms}
    (hreg : c₀.reg = []) {w : World σ} (hw : Placid env thr halt c₀ w) (hl : (w.hist.length : Int) ≤ intMax) :
    Obliging env I m w r := by
  cases r with
  | execute =>
    obtain ⟨f, hf⟩ := hd
    obtain ⟨h1, h2⟩ := execFields_parsed hc hf
    exact ⟨f, hf, fun n => Yields.mono (hA.execute n _ _ _ _ _ h1 h2) fun j hj => ⟨.inl hj.1, hj.2⟩⟩
  | complete =>
    obtain ⟨⟨code, pos⟩, hf⟩ := hd
    have hf' := hf
    simp only [completeFields, Option.ite_none_right_eq_some, Option.bind_eq_bind, Option.bind_eq_some_iff, Option.pure_def,
      Option.some.injEq, Prod.mk.injEq] at hf'
    obtain ⟨_, _, h1, _, h2, rfl, rfl⟩ := hf'
    exact ⟨_, _, hf, hA.complete _ _ (parsed_str hc (utf8_lit (by decide)) h1) (intField_range (by decide) h2)⟩
  | inspect =>
    obtain ⟨⟨code, pos, detail⟩, hf⟩ := hd
    have hf' := hf
    simp only [inspectFields, Option.ite_none_right_eq_some, Option.bind_eq_bind, Option.bind_eq_some_iff, Option.pure_def,
      Option.some.injEq, Prod.mk.injEq] at hf'
    obtain ⟨_, _, h1, _, h2, _, h3, rfl, rfl, rfl⟩ := hf'
    exact ⟨_, _, _, hf, hA.inspect _ _ _ (parsed_str hc (utf8_lit (by decide)) h1) (intField_range (by decide) h2)
      (intField_range (by decide) h3)⟩
  | isComplete =>
    obtain ⟨code, hf⟩ := hd
    have hf' := hf
    simp only [codeField, Option.ite_none_right_eq_some] at hf'
    exact ⟨_, hf, hA.isComplete _ (parsed_str hc (utf8_lit (by decide)) hf'.2)⟩
  | history =>
    exact reliable_answers hw.hist hl hc hd hh
  | commInfo =>
    refine ⟨hd, ⟨by rw [hw.comm, hreg]; simp, fun id a h => ?_⟩, fun _ id n h => ?_⟩
    · rw [hw.comm, hreg] at h; cases h
    · simp [registeredTarget, hw.comm, hreg, alGet] at h
  | kernelInfo => exact Yields.mono hA.kernelInfo fun j hj => ⟨.inl hj.1, hj.2⟩
  | shutdown => exact hd
  | interrupt => trivial
  | _ => exact hd.elim

/-- All states on the way are as good. -/
theorem run_calm [Reliable env] (hs : Sane env) {thr halt keep : Prop} (hI : MildInterp env.eh thr I) (hk : keep → Cheerful I)
    (hA : Answers env.eh I) {st : Start σ} (hb : Blank st) {s : Conc σ} (h : CReach env I st s)
    (hl : ((arrived s).length : Int) ≤ intMax) (hp : ∀ q ∈ arrived s, Proper env (targetNames st) q)
    (hst : ∀ q ∈ arrived s, Shuts env q → halt) {m : XMessage} {r : Req} (hc : Parsed m.body.content)
    (hd : Documented m.body.content r) {ts : List Str} (hh : Harmless ts m.body.content r) :
    CRun env I st (fun w => Obliging env I m w r) s := by
  have key : ∀ {s : Conc σ}, SInv env thr halt keep st.w.comm s → ((arrived s).length : Int) ≤ intMax → Obliging env I m s.w r := by
    intro s hi hl
    obtain ⟨n, k, _, _, h3⟩ := hi.sure
    exact obliging_of hs hA hc hd hh hb.1 hi.placid (by omega)
  induction h with
  | start =>
    have h := key (sinv_reach hs hI hk hb CReach.start hl hp hst) hl
    exact .start h
  | step hr hst' ih =>
    rename_i s s'
    obtain ⟨g1, g2⟩ := arrived_step hst' fun t p w' h => (creach_kept hr h).2
    exact (ih (by omega) (fun q hq => hp q (g2 q hq)) fun q hq => hst q (g2 q hq)).step hst'
      (key (sinv_reach hs hI hk hb (hr.step hst') hl hp hst) hl)

theorem drainedBy_nil {t : Chan} {l : List Act} (h : ∀ q, Act.drained t q ∉ l) : drainedBy t l = [] := by
  induction l with
  | nil => rfl
  | cons a l ih =>
    have := ih fun q hq => h q (List.mem_cons_of_mem _ hq)
    cases a with
    | drained t' q =>
      have : t' ≠ t := fun ht => h q (by rw [ht]; exact List.mem_cons_self)
      simp only [drainedBy, if_neg this]
      assumption
    | _ => exact this

/-- What a thread that is done with a message answered. -/
theorem replied_log [Reliable env] (hs : Sane env) {log : List SEv} {thr halt keep : Prop} (hI : MildInterp env.eh thr I) (hn : ¬ thr)
    (hk : keep → Cheerful I) (hA : Answers env.eh I) {st : Start σ} (hb : Blank st) {s : Conc σ} (h : CReach env I st s)
    (hl : ((arrived s).length : Int) ≤ intMax) (hp : ∀ q ∈ arrived s, Proper env (targetNames st) q)
    (hst : ∀ q ∈ arrived s, Shuts env q → halt) (hlog : actsIn log = s.log) {t : Chan} (hd : s.prog t = .done (.ok ()))
    {l₀ l : List SEv} {q : Multipart} (heq : log = l₀ ++ .act (.took t q) :: l) {m : XMessage} {r : Req}
    (ha : Accepted env.C env.J env.auth q m) (hr : IsReq m r) (hdoc : Documented m.body.content r) :
    ∃ ab, Replied env log t (takenFrom t l₀).length q m r ab ∧ (keep → ab = []) := by
  have hq : q ∈ arrived s := by
    refine List.mem_append_left _ (List.mem_append_left _ ?_)
    rw [← hlog, heq]
    simp [actsIn_append, received_append, actsIn, received]
  have hh := (hp q hq).2 m ha
  have hi := sinv_reach hs hI hk hb h hl hp hst
  obtain ⟨_, _, _, hpc⟩ := accepted_parsed hs ha
  have hrun := run_calm hs hI hk hA hb h hl hp hst hpc hdoc (hh.2 r hr)
  obtain ⟨l₁, l₂, rfl, h1, h2⟩ := until_took t l
  obtain ⟨rt, hrt⟩ : ∃ rt, replyType r = some rt := by
    cases r <;> first | exact ⟨_, rfl⟩ | exact hdoc.elim
  have ho : Over s t q (actsIn l₁) := by
    refine ⟨actsIn l₀, actsIn l₂, ?_, fun x hx => h1 x (mem_actsIn.1 hx), ?_⟩
    · rw [← hlog, heq]
      simp [actsIn_append, actsIn]
    · rcases h2 with rfl | ⟨x, l₃, rfl⟩
      · exact .inr ⟨rfl, hd⟩
      · exact .inl ⟨x, actsIn l₃, rfl⟩
  have hsub : ∀ a ∈ actsIn l₁, a ∈ s.log := fun a ha => by
    rw [← hlog, heq]
    simp [actsIn_append, actsIn, ha]
  obtain ⟨own, ⟨_, done, stuck, ab, g1, g2, g3, _⟩, h4⟩ := C80_answer env hs I st s m r rt hrun t q _ ho ha hr hrt
  rcases h4 with ⟨rep, rfl, h5⟩ | ⟨_, e, he⟩
  · refine ⟨ab, ⟨l₀, l₁, l₂, rt, rep, heq, rfl, h1, hrt, h5, g1⟩, fun hkeep => ?_⟩
    have : drainedBy t (actsIn l₁) = [] := drainedBy_nil fun q hq => hi.kept hkeep t q (hsub _ hq)
    rw [this] at g2
    obtain ⟨rfl, _⟩ := List.append_eq_nil_iff.1 g2.symm
    cases g3
    rfl
  · exact absurd ((hi.calm t _ (hsub _ (mem_eventsOf he))).1 e rfl) hn

/-- What a thread that is done with a message aborted. -/
theorem aborted_log (hs : Sane env) {log : List SEv} {st : Start σ} {s : Conc σ} (h : CReach env I st s) (hlog : actsIn log = s.log)
    {t : Chan} (hd : s.prog t = .done (.ok ())) {l₀ l : List SEv} {q : Multipart} (hl : log = l₀ ++ .act (.drained t q) :: l)
    {m : XMessage} (ha : Accepted env.C env.J env.auth q m) : AbortedBy env log (takenFrom .shell l₀).length q m := by
  have hb : ∃ x, SEv.act (.took t x) ∈ l₀ := by
    rcases handling_reach h (actsIn l₀) (.drained t q) (actsIn l)
      (by rw [← hlog, hl]; simp [actsIn_append, actsIn]) with ⟨_, h⟩ | ⟨x, h⟩
    · cases h
    · exact ⟨x, mem_actsIn.1 h⟩
  obtain ⟨m₀, q', a, rfl, h1⟩ := since_took t l₀ hb
  obtain ⟨b, l₂, rfl, h2, h3⟩ := until_took t l
  refine ⟨m₀, t, q', a, b, l₂, by rw [hl]; simp, rfl, ?_, fun hab => ?_⟩
  · intro x hx
    rcases List.mem_append.1 hx with hx | hx
    · exact h1 x hx
    · exact h2 x hx
  · have hn : ∀ x, SEv.act (.took t x) ∉ a ++ .act (.drained t q) :: b := by
      intro x hx
      rcases List.mem_append.1 hx with hx | hx
      · exact h1 x hx
      · rcases List.mem_cons.1 hx with hx | hx
        · cases hx
        · exact h2 x hx
    have ho : Over s t q' (actsIn (a ++ .act (.drained t q) :: b)) := by
      refine ⟨actsIn m₀, actsIn l₂, ?_, fun x hx => hn x (mem_actsIn.1 hx), ?_⟩
      · rw [← hlog, hl]
        simp [actsIn_append, actsIn]
      · rcases h3 with rfl | ⟨x, l₃, rfl⟩
        · exact .inr ⟨rfl, hd⟩
        · exact .inl ⟨x, actsIn l₃, rfl⟩
    obtain ⟨rep, h4, h5⟩ := C80_aborted env hs I st s h t q' _ ho q (mem_actsIn.2 (by simp)) hab m ha
    refine ⟨rep, ?_, h5⟩
    have h6 := mem_actsIn.1 h4
    rcases List.mem_append.1 h6 with h6 | h6
    · exact List.mem_append_left _ h6
    · rcases List.mem_cons.1 h6 with h6 | h6
      · cases h6
      · exact List.mem_append_right _ h6

end Xeus
