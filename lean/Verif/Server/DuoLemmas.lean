import Verif.Server.Duo
import Verif.Server.RemoteLemmas
import Verif.Server.SplitAnswers

/-!
# The split servers with internal requests: they do what `Split` does (no property statements here)
-/

namespace Xeus

open Spec K

variable {σ : Type} {env : Env} {I : Interp σ}

/-- Without the exchanges between control and shell thread. -/
def evsOf (l : List DEv) : List SEv :=
  l.filterMap fun
    | .ev e => some e
    | _ => none

theorem evsOf_append (a b : List DEv) : evsOf (a ++ b) = evsOf a ++ evsOf b := List.filterMap_append

theorem evsOf_map (l : List Act) : evsOf (l.map fun a => .ev (.act a)) = l.map .act := by
  induction l with
  | nil => rfl
  | cons x l ih =>
    show SEv.act x :: evsOf _ = _
    rw [ih]; rfl

namespace A

variable {S α : Type}

/-- Every question is one of these. -/
def Asks (P : Frame → Prop) : A S α → Prop
  | done _ => True
  | act _ k => ∀ r, (k r).Asks P
  | ask t k => P t ∧ ∀ r, (k r).Asks P

theorem asks_step {P : Frame → Prop} {m p : A S α} {s s' : S} (h : m.Asks P) (hs : m.step s = some (p, s')) : p.Asks P := by
  cases m with
  | done r => cases hs
  | ask t k => cases hs
  | act f k =>
    simp only [step, Option.some.injEq] at hs
    rcases hf : f s with ⟨r, s₁⟩
    rw [hf] at hs
    cases r <;> simp only [Prod.mk.injEq] at hs <;> obtain ⟨rfl, _⟩ := hs
    · exact h _
    · exact h _
    · trivial
    · trivial

/-- A step of the one is a step of the other. -/
theorem step_inline {m p : A S α} {s s' : S} (serve : Frame → K S Frame) (hs : m.step s = some (p, s')) :
    (m.inline serve).step s = some (p.inline serve, s') := by
  cases m with
  | done r => cases hs
  | ask t k => cases hs
  | act f k =>
    simp only [step, Option.some.injEq] at hs
    simp only [inline, K.step, Option.some.injEq]
    rcases hf : f s with ⟨r, s₁⟩
    rw [hf] at hs
    cases r <;> simp only [Prod.mk.injEq] at hs ⊢ <;> obtain ⟨rfl, rfl⟩ := hs <;> exact ⟨rfl, rfl⟩

/-- A step inside of a composition. -/
theorem step_within {β : Type} {m p : K S β} {s s' : S} (g : Except Exc β → K S α) (hs : m.step s = some (p, s')) :
    (m.attempt.bind g).step s = some (p.attempt.bind g, s') := by
  cases m with
  | done r => cases hs
  | act f k =>
    simp only [K.step, Option.some.injEq] at hs
    simp only [K.attempt, K.bind, K.step, Option.some.injEq]
    rcases hf : f s with ⟨r, s₁⟩
    rw [hf] at hs
    cases r <;> simp only [Prod.mk.injEq] at hs ⊢ <;> obtain ⟨rfl, rfl⟩ := hs <;> exact ⟨rfl, rfl⟩

end A

namespace Duo

/-- What the control thread has still to do, together with the shell thread. -/
def todo (env : Env) (I : Interp σ) (s : Duo σ) : K (World σ) Unit :=
  match s.calling, s.cprog with
  | true, .ask text k =>
    (match s.inner with
      | some p => p
      | none => match s.rep with
        | some r => .done (.ok r)
        | none => dispatchInternal env I text).attempt.bind fun r => (k r).inline (dispatchInternal env I)
  | _, p => p.inline (dispatchInternal env I)

/-- Where the shell thread is, internal requests apart. -/
def spcOf (s : Duo σ) : ShellPc :=
  match s.calling, s.spc with
  | true, .echo => .poll
  | true, .asked true => .poll
  | true, .ready false true => .poll
  | true, .ready true true => .ready true false
  | true, .busy true => .busy false
  | _, x => x

/-- The state of the server in which the control thread performs internal requests itself. -/
def abs (env : Env) (I : Interp σ) (s : Duo σ) : Split σ where
  c :=
    { w := s.w
      prog := fun
        | .control => s.todo env I
        | .shell => s.sprog.inline (dispatchInternal env I)
      controlQ := s.controlQ
      log := actsIn (evsOf s.log) }
  kpc := s.kpc
  spc := s.spcOf
  flag := s.flag
  ctl := !s.calling && s.cmd.isSome
  ack := !s.calling && s.rep.isSome
  pub := s.pub
  hb := s.hb
  stopped := s.stopped
  dropped := s.dropped
  log := evsOf s.log

/-- The exchange between the threads. -/
inductive Link (s : Duo σ) : Prop
  /-- the control thread sent a request -/
  | sent (text : Frame) (k : Except Exc Frame → A (World σ) Unit) : s.calling = true → s.kpc = .busy → s.cprog = .ask text k →
      text ≠ lit "stop" → s.cmd = some text → s.inner = none → s.rep = none → s.spc ≠ .echo → s.spc ≠ .over → Link s
  /-- the shell thread performs a request -/
  | serving (text : Frame) (k : Except Exc Frame → A (World σ) Unit) (p : K (World σ) Frame) : s.calling = true → s.kpc = .busy →
      s.cprog = .ask text k → s.cmd = none → s.inner = some p → s.rep = none → s.spc = .echo → Link s
  /-- the answer is on its way -/
  | replied (text : Frame) (k : Except Exc Frame → A (World σ) Unit) (r : Frame) : s.calling = true → s.kpc = .busy →
      s.cprog = .ask text k → s.cmd = none → s.inner = none → s.rep = some r → s.spc ≠ .echo → s.spc ≠ .over → Link s
  /-- nothing -/
  | quiet : s.calling = false → s.kpc ≠ .waitSh → s.cmd = none → s.inner = none → s.rep = none → s.spc ≠ .echo →
      (s.spc = .over ↔ s.kpc = .stopPub ∨ s.kpc = .waitPub ∨ s.kpc = .stopHb ∨ s.kpc = .waitHb ∨ s.kpc = .notify ∨ s.kpc = .over) →
      Link s
  /-- the control thread sent the command -/
  | stopping : s.calling = false → s.kpc = .waitSh → s.cmd = some (lit "stop") → s.inner = none → s.rep = none → s.spc ≠ .echo →
      s.spc ≠ .over → Link s
  | echoing : s.calling = false → s.kpc = .waitSh → s.cmd = none → s.inner = none → s.rep = none → s.spc = .echo → Link s
  | echoed : s.calling = false → s.kpc = .waitSh → s.cmd = none → s.inner = none → s.rep = some (lit "stop") → s.spc = .over → Link s

structure Inv (s : Duo σ) : Prop where
  link : Link s
  asks : s.cprog.Asks (· ≠ lit "stop")
  /-- what was seen is there -/
  seen : (∃ r, s.spc = .ready r true) ∨ s.spc = .busy true ∨ s.spc = .asked true → s.cmd ≠ none
  idleC : s.kpc ≠ .busy → s.cprog = .done (.ok ())
  idleS : (∀ r, s.spc ≠ .busy r) → s.sprog = .done (.ok ())

/-- No debugger asks the shell thread to stop. -/
def Sound (env : Env) (I : Interp σ) : Prop := ∀ q, (dispatchA env I q .control).Asks (· ≠ lit "stop")

theorem Link.same {s s' : Duo σ} (h : Link s) (h1 : s'.calling = s.calling) (h2 : s'.kpc = s.kpc) (h3 : s'.cprog = s.cprog)
    (h4 : s'.cmd = s.cmd) (h5 : s'.inner = s.inner) (h6 : s'.rep = s.rep)
    (h7 : s'.spc = s.spc ∨ (s.spc ≠ .echo ∧ s.spc ≠ .over ∧ s'.spc ≠ .echo ∧ s'.spc ≠ .over)) : Link s' := by
  have he : s.spc ≠ .echo → s'.spc ≠ .echo := fun h => h7.elim (fun h' => by rw [h']; exact h) fun h' => h'.2.2.1
  have ho : s.spc ≠ .over → s'.spc ≠ .over := fun h => h7.elim (fun h' => by rw [h']; exact h) fun h' => h'.2.2.2
  have he' : s.spc = .echo → s'.spc = .echo := fun h => h7.elim (fun h' => h'.trans h) fun h' => absurd h h'.1
  have ho' : s.spc = .over → s'.spc = .over := fun h => h7.elim (fun h' => h'.trans h) fun h' => absurd h h'.2.1
  cases h with
  | sent t k a1 a2 a3 a4 a5 a6 a7 a8 a9 =>
    exact .sent t k (h1.trans a1) (h2.trans a2) (h3.trans a3) a4 (h4.trans a5) (h5.trans a6) (h6.trans a7) (he a8) (ho a9)
  | serving t k p a1 a2 a3 a4 a5 a6 a7 =>
    exact .serving t k p (h1.trans a1) (h2.trans a2) (h3.trans a3) (h4.trans a4) (h5.trans a5) (h6.trans a6) (he' a7)
  | replied t k r a1 a2 a3 a4 a5 a6 a7 a8 =>
    exact .replied t k r (h1.trans a1) (h2.trans a2) (h3.trans a3) (h4.trans a4) (h5.trans a5) (h6.trans a6) (he a7) (ho a8)
  | quiet a1 a2 a3 a4 a5 a6 a7 =>
    exact .quiet (h1.trans a1) (by rw [h2]; exact a2) (h4.trans a3) (h5.trans a4) (h6.trans a5) (he a6)
      (by rw [h2, ← a7]; exact ⟨fun h => Classical.byContradiction fun hn => ho hn h, ho'⟩)
  | stopping a1 a2 a3 a4 a5 a6 a7 =>
    exact .stopping (h1.trans a1) (h2.trans a2) (h4.trans a3) (h5.trans a4) (h6.trans a5) (he a6) (ho a7)
  | echoing a1 a2 a3 a4 a5 a6 => exact .echoing (h1.trans a1) (h2.trans a2) (h4.trans a3) (h5.trans a4) (h6.trans a5) (he' a6)
  | echoed a1 a2 a3 a4 a5 a6 => exact .echoed (h1.trans a1) (h2.trans a2) (h4.trans a3) (h5.trans a4) (h6.trans a5) (ho' a6)

/-- The control thread goes on while nothing is exchanged. -/
theorem Link.control {s s' : Duo σ} (h : Link s) (hc : s.calling = false) (hk : s.kpc ≠ .waitSh)
    (h1 : s'.calling = s.calling) (h4 : s'.cmd = s.cmd) (h5 : s'.inner = s.inner) (h6 : s'.rep = s.rep) (h7 : s'.spc = s.spc)
    (hk' : s'.kpc ≠ .waitSh) (ho : (s.kpc = .stopPub ∨ s.kpc = .waitPub ∨ s.kpc = .stopHb ∨ s.kpc = .waitHb ∨ s.kpc = .notify ∨ s.kpc = .over) ↔
      (s'.kpc = .stopPub ∨ s'.kpc = .waitPub ∨ s'.kpc = .stopHb ∨ s'.kpc = .waitHb ∨ s'.kpc = .notify ∨ s'.kpc = .over)) : Link s' := by
  cases h with
  | quiet a1 a2 a3 a4 a5 a6 a7 =>
    exact .quiet (h1.trans a1) hk' (h4.trans a3) (h5.trans a4) (h6.trans a5) (by rw [h7]; exact a6) (by rw [h7, ← ho]; exact a7)
  | _ => simp_all

theorem inv_reach (hd : Sound env I) {st : Start σ} {s : Duo σ} (h : Reach env I st s) : Inv s := by
  induction h with
  | init =>
    exact ⟨.quiet rfl (by simp [init]) rfl rfl rfl (by simp [init]) (by simp [init]), trivial, by simp [init], fun _ => rfl, fun _ => rfl⟩
  | @step s s' a hr hs ih =>
    have notCalling : s.calling = true → s.kpc = .busy ∧ ∃ t k, s.cprog = .ask t k := by
      intro h
      cases ih.link <;> simp_all
    have free : s.kpc ≠ .busy → s.calling = false := fun h => by
      cases hc : s.calling with
      | false => rfl
      | true => exact absurd (notCalling hc).1 h
    obtain ⟨h1, h2, h3, h4, h5⟩ := ih
    cases hs with
    | arriveShell _ q => exact ⟨h1.same rfl rfl rfl rfl rfl rfl (.inl rfl), h2, h3, h4, h5⟩
    | arriveControl _ q => exact ⟨h1.same rfl rfl rfl rfl rfl rfl (.inl rfl), h2, h3, h4, h5⟩
    | arriveStdin _ q => exact ⟨h1.same rfl rfl rfl rfl rfl rfl (.inl rfl), h2, h3, h4, h5⟩
    | ping _ i m => exact ⟨h1.same rfl rfl rfl rfl rfl rfl (.inl rfl), h2, h3, h4, h5⟩
    | publisher _ a ha => exact ⟨h1.same rfl rfl rfl rfl rfl rfl (.inl rfl), h2, h3, h4, h5⟩
    | heartbeat _ a ha => exact ⟨h1.same rfl rfl rfl rfl rfl rfl (.inl rfl), h2, h3, h4, h5⟩
    | start _ hp =>
      exact ⟨h1.control (free (by simp [hp])) (by simp [hp]) rfl rfl rfl rfl rfl (by simp) (by simp [hp]), h2, h3,
        fun _ => h4 (by simp [hp]), h5⟩
    | test _ hp hf =>
      exact ⟨h1.control (free (by simp [hp])) (by simp [hp]) rfl rfl rfl rfl rfl (by simp) (by simp [hp]), h2, h3,
        fun _ => h4 (by simp [hp]), h5⟩
    | leave _ hp hf =>
      exact ⟨h1.control (free (by simp [hp])) (by simp [hp]) rfl rfl rfl rfl rfl (by simp) (by simp [hp]), h2, h3,
        fun _ => h4 (by simp [hp]), h5⟩
    | takeControl _ q r hp hq =>
      exact ⟨h1.control (free (by simp [hp])) (by simp [hp]) rfl rfl rfl rfl rfl (by simp) (by simp [hp]), hd q, h3,
        fun h => absurd rfl h, h5⟩
    | workControl _ p w' keep hp hs hk =>
      have hc : s.calling = false := by
        cases hc : s.calling with
        | false => rfl
        | true =>
          obtain ⟨_, t, k, h⟩ := notCalling hc
          rw [h] at hs
          cases hs
      exact ⟨h1.control hc (by simp [hp]) rfl rfl rfl rfl rfl (by simp [effect, hp]) (by simp [effect, hp]), A.asks_step h2 hs, h3,
        fun h => absurd hp h, h5⟩
    | call _ text k hp hc hk =>
      rw [hk] at h2
      refine ⟨?_, by rw [hk]; exact h2, fun h => by simp, h4, h5⟩
      cases h1 with
      | quiet a1 a2 a3 a4 a5 a6 a7 =>
        exact .sent text k rfl hp hk h2.1 rfl a4 a5 a6 (fun h => by simp [hp] at a7; exact a7 h)
      | _ => simp_all
    | answer _ text k r hp hc hk hr =>
      rw [hk] at h2
      refine ⟨?_, h2.2 _, h3, fun h => absurd hp h, h5⟩
      cases h1 with
      | replied t k' r' a1 a2 a3 a4 a5 a6 a7 a8 =>
        exact .quiet rfl (by simp [hp]) a4 a5 rfl a7 (by simp [hp]; exact a8)
      | _ => simp_all
    | doneControl _ hp hd =>
      have hc : s.calling = false := by
        cases hc : s.calling with
        | false => rfl
        | true =>
          obtain ⟨_, t, k, h⟩ := notCalling hc
          rw [h] at hd
          cases hd
      exact ⟨h1.control hc (by simp [hp]) rfl rfl rfl rfl rfl (by simp) (by simp [hp]), h2, h3, fun _ => hd, h5⟩
    | stopSh _ hp =>
      refine ⟨?_, h2, fun h => by simp, fun _ => h4 (by simp [hp]), h5⟩
      cases h1 with
      | quiet a1 a2 a3 a4 a5 a6 a7 => exact .stopping a1 rfl rfl a4 a5 a6 (by simp [hp] at a7; exact a7)
      | _ => simp_all
    | waitSh _ hp hr =>
      refine ⟨?_, h2, h3, fun _ => h4 (by simp [hp]), h5⟩
      cases h1 with
      | echoed a1 a2 a3 a4 a5 a6 => exact .quiet a1 (by simp) a3 a4 rfl (by simp [a6]) (by simp [a6])
      | _ => simp_all
    | stopPub _ hp =>
      exact ⟨h1.control (free (by simp [hp])) (by simp [hp]) rfl rfl rfl rfl rfl (by simp) (by simp [hp]), h2, h3,
        fun _ => h4 (by simp [hp]), h5⟩
    | waitPub _ hp ha =>
      exact ⟨h1.control (free (by simp [hp])) (by simp [hp]) rfl rfl rfl rfl rfl (by simp) (by simp [hp]), h2, h3,
        fun _ => h4 (by simp [hp]), h5⟩
    | stopHb _ hp =>
      exact ⟨h1.control (free (by simp [hp])) (by simp [hp]) rfl rfl rfl rfl rfl (by simp) (by simp [hp]), h2, h3,
        fun _ => h4 (by simp [hp]), h5⟩
    | waitHb _ hp ha =>
      exact ⟨h1.control (free (by simp [hp])) (by simp [hp]) rfl rfl rfl rfl rfl (by simp) (by simp [hp]), h2, h3,
        fun _ => h4 (by simp [hp]), h5⟩
    | notify _ hp =>
      exact ⟨h1.control (free (by simp [hp])) (by simp [hp]) rfl rfl rfl rfl rfl (by simp) (by simp [hp]), h2, h3,
        fun _ => h4 (by simp [hp]), h5⟩
    | sample0 _ r hp hr =>
      exact ⟨h1.same rfl rfl rfl rfl rfl rfl (.inr (by simp [hp])), h2, by simp, h4, fun _ => h5 (by simp [hp])⟩
    | sample1 _ r0 hp hr =>
      refine ⟨h1.same rfl rfl rfl rfl rfl rfl (.inr (by simp [hp])), h2, ?_, h4, fun _ => h5 (by simp [hp])⟩
      rintro (⟨r, h⟩ | h | h)
      · simp only [ShellPc.ready.injEq] at h
        intro hn
        simp only at hn
        rw [hn] at h
        cases h.2
      · cases h
      · cases h
    | nothing _ hp hc =>
      exact ⟨h1.same rfl rfl rfl rfl rfl rfl (.inr (by simp [hp])), h2, by simp, h4, fun _ => h5 (by simp [hp])⟩
    | takeShell _ r1 q r hp hq =>
      refine ⟨h1.same rfl rfl rfl rfl rfl rfl (.inr (by simp [hp])), h2, ?_, h4, fun h => absurd rfl (h r1)⟩
      rintro (⟨r, h⟩ | h | h)
      · cases h
      · cases h; exact h3 (.inl ⟨_, hp⟩)
      · cases h
    | skip _ r1 hp =>
      refine ⟨h1.same rfl rfl rfl rfl rfl rfl (.inr (by simp [hp])), h2, ?_, h4, fun _ => h5 (by simp [hp])⟩
      rintro (⟨r, h⟩ | h | h)
      · cases h
      · cases h
      · cases h; exact h3 (.inl ⟨_, hp⟩)
    | workShell _ r1 p w' keep hp hs hk =>
      exact ⟨h1.same rfl rfl rfl rfl rfl rfl (.inl rfl), h2, h3, h4, fun h => absurd hp (h r1)⟩
    | doneShell _ r1 hp hd =>
      refine ⟨h1.same rfl rfl rfl rfl rfl rfl (.inr (by simp [hp])), h2, ?_, h4, fun _ => hd⟩
      rintro (⟨r, h⟩ | h | h)
      · cases h
      · cases h
      · cases h; exact h3 (.inr (.inl hp))
    | again _ hp => exact ⟨h1.same rfl rfl rfl rfl rfl rfl (.inr (by simp [hp])), h2, by simp, h4, fun _ => h5 (by simp [hp])⟩
    | recvStop _ hp hc =>
      refine ⟨?_, h2, by simp, h4, fun _ => h5 (by simp [hp])⟩
      cases h1 with
      | stopping a1 a2 a3 a4 a5 a6 a7 => exact .echoing a1 a2 rfl a4 a5 rfl
      | _ => simp_all
    | recvInternal _ text hp hc ht =>
      refine ⟨?_, h2, by simp, h4, fun _ => h5 (by simp [hp])⟩
      cases h1 with
      | sent t k a1 a2 a3 a4 a5 a6 a7 a8 a9 => exact .serving t k _ a1 a2 a3 rfl rfl a7 rfl
      | _ => simp_all
    | workInternal _ m p w' keep hp hm hs hk =>
      refine ⟨?_, h2, h3, h4, h5⟩
      cases h1 with
      | serving t k p' a1 a2 a3 a4 a5 a6 a7 => exact .serving t k p a1 a2 a3 a4 rfl a6 a7
      | _ => simp_all
    | doneInternal _ r hp hm =>
      refine ⟨?_, h2, by simp, h4, fun _ => h5 (by simp [hp])⟩
      cases h1 with
      | serving t k p' a1 a2 a3 a4 a5 a6 a7 => exact .replied t k r a1 a2 a3 a4 rfl rfl (by simp) (by simp)
      | _ => simp_all
    | sendCtl _ hp hm =>
      refine ⟨?_, h2, by simp, h4, fun _ => h5 (by simp [hp])⟩
      cases h1 with
      | echoing a1 a2 a3 a4 a5 a6 => exact .echoed a1 a2 a3 a4 rfl rfl
      | _ => simp_all

theorem abs_is {s : Duo σ} {t : Split σ} (w : t.c.w = s.w := by rfl) (ctl : t.c.prog .control = s.todo env I := by rfl)
    (sh : t.c.prog .shell = s.sprog.inline (dispatchInternal env I) := by rfl) (queue : t.c.controlQ = s.controlQ := by rfl)
    (acts : t.c.log = actsIn (evsOf s.log) := by rfl) (kpc : t.kpc = s.kpc := by rfl) (spc : t.spc = s.spcOf := by rfl)
    (flag : t.flag = s.flag := by rfl) (cmd : t.ctl = (!s.calling && s.cmd.isSome) := by rfl)
    (rep : t.ack = (!s.calling && s.rep.isSome) := by rfl) (pub : t.pub = s.pub := by rfl) (hb : t.hb = s.hb := by rfl)
    (stopped : t.stopped = s.stopped := by rfl) (dropped : t.dropped = s.dropped := by rfl) (log : t.log = evsOf s.log := by rfl) :
    abs env I s = t := by
  obtain ⟨⟨w', prog, q, l⟩, _, _, _, _, _, _, _, _, _, _⟩ := t
  simp only at *
  subst w queue acts kpc spc flag cmd rep pub hb stopped dropped log
  simp only [abs]
  congr 2
  funext c
  cases c
  · exact sh.symm
  · exact ctl.symm

/-- What a step is, internal requests apart. -/
inductive Sim (env : Env) (I : Interp σ) (a : SWho) (s s' : Duo σ) : Prop
  | same : abs env I s' = abs env I s → (s.calling = true ∨ s.kpc = .busy) → Sim env I a s s'
  | one : Split.Step env I a (abs env I s) (abs env I s') → Sim env I a s s'
  | inner : Split.Step env I .control (abs env I s) (abs env I s') → s.calling = true → Sim env I a s s'
  | two (t : Split σ) : t.c = (abs env I s).c → Split.Step env I a (abs env I s) t → Split.Step env I a t (abs env I s') →
      s.calling = true → Sim env I a s s'

theorem Sim.of {s s' : Duo σ} {a : SWho} {t : Split σ} (h : Split.Step env I a (abs env I s) t) (he : abs env I s' = t) :
    Sim env I a s s' := .one (he ▸ h)

theorem Sim.ofInner {s s' : Duo σ} {a : SWho} {t : Split σ} (h : Split.Step env I .control (abs env I s) t) (he : abs env I s' = t)
    (hc : s.calling = true) : Sim env I a s s' := .inner (he ▸ h) hc

theorem todo_idle {s : Duo σ} (h : s.calling = false) : s.todo env I = s.cprog.inline (dispatchInternal env I) := by
  unfold todo
  rw [h]

theorem spcOf_idle {s : Duo σ} (h : s.calling = false) : s.spcOf = s.spc := by
  unfold spcOf
  rw [h]

theorem ev_acts (l : List DEv) (e : SEv) : actsIn (evsOf (l ++ [.ev e])) = actsIn (evsOf l) ++ actsIn [e] := by
  rw [evsOf_append, actsIn_append]; rfl

theorem ev_evs (l : List DEv) (e : SEv) : evsOf (l ++ [.ev e]) = evsOf l ++ [e] := by
  rw [evsOf_append]; rfl

theorem abs_effect_log (l : List DEv) (es : List Act) : evsOf (l ++ es.map fun a => .ev (.act a)) = evsOf l ++ es.map .act := by
  rw [evsOf_append, evsOf_map]

theorem abs_effect_acts (l : List DEv) (es : List Act) :
    actsIn (evsOf (l ++ es.map fun a => .ev (.act a))) = actsIn (evsOf l) ++ es := by
  rw [abs_effect_log, actsIn_append, actsIn_map]

theorem sim {s s' : Duo σ} {a : SWho} (hi : Inv s) (h : Step env I a s s') : Sim env I a s s' := by
  have notCalling : s.calling = true → s.kpc = .busy ∧ ∃ t k, s.cprog = .ask t k := by
    intro h
    cases hi.link <;> simp_all
  have free : s.kpc ≠ .busy → s.calling = false := fun h => by
    cases hc : s.calling with
    | false => rfl
    | true => exact absurd (notCalling hc).1 h
  have hcal : s.calling = false ∨ s.calling = true := by cases s.calling <;> simp
  obtain ⟨h1, h2, h3, h4, h5⟩ := hi
  cases h with
  | arriveShell _ q =>
    exact .of (.arriveShell _ q) (abs_is (log := (ev_evs _ _).symm) (acts := by rw [ev_acts]; simp [actsIn, abs]))
  | arriveControl _ q =>
    exact .of (.arriveControl _ q) (abs_is (log := (ev_evs _ _).symm) (acts := by rw [ev_acts]; simp [actsIn, abs]))
  | arriveStdin _ q => exact .of (.arriveStdin _ q) (abs_is)
  | ping _ i m => exact .of (.ping _ i m) (abs_is)
  | publisher _ a ha => exact .of (.publisher _ a ha) (abs_is)
  | heartbeat _ a ha => exact .of (.heartbeat _ a ha) (abs_is)
  | start _ hp => exact .of (.start _ hp) (abs_is (log := (ev_evs _ _).symm) (acts := by rw [ev_acts]; simp [actsIn, abs]))
  | test _ hp hf => exact .of (.test _ hp hf) (abs_is)
  | leave _ hp hf => exact .of (.leave _ hp hf) (abs_is)
  | takeControl _ q r hp hq =>
    have hc := free (by simp [hp])
    exact .of (.takeControl _ q r hp hq) (abs_is (log := (ev_evs _ _).symm) (acts := by rw [ev_acts]; simp [actsIn, abs])
      (ctl := by
        refine Eq.symm (Eq.trans (todo_idle ?_) (inline_dispatchA env I q .control))
        exact hc))
  | workControl _ p w' keep hp hs hk =>
    have hc : s.calling = false := by
      cases hc : s.calling with
      | false => rfl
      | true =>
        obtain ⟨_, t, k, h⟩ := notCalling hc
        rw [h] at hs
        cases hs
    refine .of (.workControl _ (p.inline (dispatchInternal env I)) w' keep hp ?_ hk)
      (abs_is (log := (abs_effect_log _ _).symm) (acts := by simp only [effect, abs_effect_acts]; rfl)
      (ctl := by rw [todo_idle (s := { s.effect .control w' keep with cprog := p }) hc]; simp [Split.work, setProg])
      (sh := by simp [Split.work, setProg]; rfl))
    show (s.todo env I).step s.w = _
    rw [todo_idle hc]
    exact A.step_inline _ hs
  | call _ text k hp hc hk =>
    have hq : s.cmd = none ∧ s.inner = none ∧ s.rep = none ∧ s.spc ≠ .echo := by cases h1 <;> simp_all
    obtain ⟨q1, q2, q3, q4⟩ := hq
    have hsp : spcOf { s with calling := true, cmd := some text, log := s.log ++ [.asked text] } = s.spc := by
      unfold spcOf
      simp only
      split <;> simp_all
    exact .same (abs_is (ctl := by
        show s.todo env I = _
        rw [todo_idle hc, hk]
        unfold todo
        simp only [q2, q3, A.inline]) (acts := by simp [evsOf, abs]) (log := by simp [evsOf, abs])
      (cmd := by simp [abs, q1]) (rep := by simp [abs, q3]) (spc := by rw [hsp]; exact spcOf_idle hc)) (.inr hp)
  | answer _ text k r hp hc hk hr =>
    have hq : s.cmd = none ∧ s.inner = none ∧ s.spc ≠ .echo := by cases h1 <;> simp_all
    obtain ⟨q1, q2, q4⟩ := hq
    have hsp : spcOf s = s.spc := by
      unfold spcOf
      split <;> simp_all
    exact .same (abs_is (ctl := by
        refine Eq.trans ?_ (todo_idle rfl).symm
        show s.todo env I = _
        unfold todo
        simp only [hc, q2, hr, hk]
        rfl) (acts := by simp [evsOf, abs]) (log := by simp [evsOf, abs])
      (cmd := by simp [abs, q1]) (rep := by simp [abs, hc]) (spc := hsp)) (.inr hp)
  | doneControl _ hp hd =>
    have hc : s.calling = false := by
      cases hc : s.calling with
      | false => rfl
      | true =>
        obtain ⟨_, t, k, h⟩ := notCalling hc
        rw [h] at hd
        cases hd
    exact .of (.doneControl _ hp (by show s.todo env I = _; rw [todo_idle hc, hd]; rfl)) (abs_is)
  | stopSh _ hp =>
    have hc := free (by simp [hp])
    exact .of (.stopSh _ hp) (abs_is (log := (ev_evs _ _).symm) (acts := by rw [ev_acts]; simp [actsIn, abs])
      (ctl := (todo_idle (s := { s with kpc := .waitSh, cmd := some (lit "stop"), log := s.log ++ [.ev .sentStop] }) hc).symm ▸
        todo_idle hc) (cmd := by simp [hc]))
  | waitSh _ hp hr =>
    have hc := free (by simp [hp])
    exact .of (.waitSh _ hp (by simp [abs, hc, Option.isSome_iff_ne_none, hr]))
      (abs_is (ctl := (todo_idle (s := { s with kpc := .stopPub, rep := none }) hc).symm ▸ todo_idle hc) (rep := by simp))
  | stopPub _ hp => exact .of (.stopPub _ hp) (abs_is)
  | waitPub _ hp ha => exact .of (.waitPub _ hp ha) (abs_is)
  | stopHb _ hp => exact .of (.stopHb _ hp) (abs_is)
  | waitHb _ hp ha => exact .of (.waitHb _ hp ha) (abs_is)
  | notify _ hp => exact .of (.notify _ hp) (abs_is)
  | sample0 _ r hp hr =>
    exact .of (.sample0 _ r (by simp [abs, spcOf, hp]) hr) (abs_is (spc := by simp [spcOf]))
  | sample1 _ r0 hp hr =>
    rcases hcal with hc | hc
    · have e : (abs env I s).ctl = s.cmd.isSome := by simp [abs, hc]
      exact .of (.sample1 _ r0 (by simp [abs, spcOf, hp]) (by rw [e, Option.isSome_iff_ne_none]; exact hr))
        (abs_is (spc := by simp only [e]; simp [spcOf, hc]))
    · have e : (abs env I s).ctl = false := by simp [abs, hc]
      cases r0 with
      | true =>
        exact .of (.sample1 _ true (by simp [abs, spcOf, hp]) (.inl rfl))
          (abs_is (spc := by rw [e]; cases h : s.cmd <;> simp [spcOf, hc]))
      | false =>
        have hn : s.cmd.isSome = true := Option.isSome_iff_ne_none.2 (hr.resolve_left (by simp))
        exact .of (.nothing _ (by simp [abs, spcOf, hp]) e) (abs_is (spc := by simp [spcOf, hc, hn]))
  | nothing _ hp hn => exact .of (.nothing _ (by simp [abs, spcOf, hp]) (by simp [abs, hn])) (abs_is (spc := by simp [spcOf]))
  | takeShell _ r1 q r hp hq =>
    suffices key : ∃ b, (abs env I s).spc = .ready true b ∧
        spcOf { s with
          w := { s.w with shellQ := r }, sprog := dispatchA env I q .shell
          spc := .busy r1, log := s.log ++ [.ev (.act (.took .shell q))] } = .busy b by
      obtain ⟨b, g1, g2⟩ := key
      exact .of (.takeShell _ b q r g1 hq) (abs_is (log := (ev_evs _ _).symm) (acts := by rw [ev_acts]; simp [actsIn, abs])
        (sh := (inline_dispatchA env I q .shell).symm) (spc := g2.symm))
    rcases hcal with hc | hc
    · exact ⟨r1, by simp [abs, spcOf, hc, hp], by simp [spcOf, hc]⟩
    · cases r1 <;> exact ⟨false, by simp [abs, spcOf, hc, hp], by simp [spcOf, hc]⟩
  | skip _ r1 hp =>
    rcases hcal with hc | hc
    · exact .of (.skip _ r1 (by simp [abs, spcOf, hc, hp])) (abs_is (spc := by simp [spcOf, hc]))
    · cases r1 with
      | false => exact .of (.skip _ false (by simp [abs, spcOf, hc, hp])) (abs_is (spc := by simp [spcOf, hc]))
      | true => exact .same (abs_is (spc := by simp [abs, spcOf, hc, hp])) (.inl hc)
  | workShell _ r1 p w' keep hp hs hk =>
    suffices key : ∃ b, (abs env I s).spc = .busy b by
      obtain ⟨b, g⟩ := key
      exact .of (.workShell _ b (p.inline (dispatchInternal env I)) w' keep g (A.step_inline _ hs) hk)
        (abs_is (log := (abs_effect_log _ _).symm) (acts := by simp only [effect, abs_effect_acts]; rfl) (spc := rfl))
    rcases hcal with hc | hc
    · exact ⟨r1, by simp [abs, spcOf, hc, hp]⟩
    · cases r1 <;> exact ⟨false, by simp [abs, spcOf, hc, hp]⟩
  | doneShell _ r1 hp hd =>
    have hd' : (abs env I s).c.prog .shell = .done (.ok ()) := by
      show s.sprog.inline _ = _
      rw [hd]; rfl
    rcases hcal with hc | hc
    · exact .of (.doneShell _ r1 (by simp [abs, spcOf, hc, hp]) hd') (abs_is (spc := by simp [spcOf, hc]))
    · cases r1 with
      | false => exact .of (.doneShell _ false (by simp [abs, spcOf, hc, hp]) hd') (abs_is (spc := by simp [spcOf, hc]))
      | true =>
        refine .two { abs env I s with spc := .asked false } rfl (.doneShell _ false (by simp [abs, spcOf, hc, hp]) hd') ?_ hc
        rw [abs_is (s := { s with spc := .asked true }) (t := { abs env I s with spc := .poll }) (spc := by simp [spcOf, hc])]
        exact .again { abs env I s with spc := .asked false } rfl
  | again _ hp => exact .of (.again _ (by simp [abs, spcOf, hp])) (abs_is (spc := by simp [spcOf]))
  | recvStop _ hp hm =>
    have hc : s.calling = false := by cases h1 <;> simp_all
    exact .of (.recvCtl _ (by simp [abs, spcOf, hc, hp])) (abs_is (spc := by simp [spcOf, hc]) (cmd := by simp))
  | recvInternal _ text hp hm ht =>
    cases h1 with
    | sent t k a1 a2 a3 a4 a5 a6 a7 a8 a9 =>
      have e : t = text := by rw [a5] at hm; exact Option.some.inj hm
      subst e
      exact .same (abs_is (ctl := by
          show s.todo env I = _
          unfold todo
          simp only [a1, a3, a6, a7]) (acts := by simp [evsOf, abs]) (log := by simp [evsOf, abs])
        (spc := by simp [abs, spcOf, a1, hp]) (cmd := by simp [abs, a1])) (.inl a1)
    | _ => simp_all
  | workInternal _ m p w' keep hp hm hs hk =>
    cases h1 with
    | serving t k p' a1 a2 a3 a4 a5 a6 a7 =>
      refine .ofInner (.workControl _ (p.attempt.bind fun r => (k r).inline (dispatchInternal env I)) w' keep a2 ?_ hk)
        (abs_is (log := (abs_effect_log _ _).symm) (acts := by simp only [effect, abs_effect_acts]; rfl)
          (ctl := by simp [Split.work, setProg, todo, effect, a1, a3])) a1
      show (s.todo env I).step s.w = _
      unfold todo
      simp only [a1, a3, hm]
      exact A.step_within _ hs
    | _ => simp_all
  | doneInternal _ r hp hm =>
    cases h1 with
    | serving t k p' a1 a2 a3 a4 a5 a6 a7 =>
      exact .same (abs_is (ctl := by
          show s.todo env I = _
          unfold todo
          simp only [a1, a3, hm]) (acts := by simp [evsOf, abs]) (log := by simp [evsOf, abs])
        (spc := by simp [abs, spcOf, a1, hp]) (rep := by simp [abs, a1])) (.inl a1)
    | _ => simp_all
  | sendCtl _ hp hm =>
    have hc : s.calling = false := by cases h1 <;> simp_all
    exact .of (.sendCtl _ (by simp [abs, spcOf, hc, hp])) (abs_is (spc := by simp [spcOf]) (rep := by simp [hc])
      (ctl := (todo_idle (s := { s with spc := .over, rep := some (lit "stop") }) hc).symm ▸ todo_idle hc))

theorem abs_init (st : Start σ) : abs env I (init st) = Split.init st := abs_is

/-- Internal requests apart, the server does what `Split` does. -/
theorem abs_reach (hd : Sound env I) {st : Start σ} {s : Duo σ} (h : Reach env I st s) : Split.Reach env I st (abs env I s) := by
  induction h with
  | init => rw [abs_init]; exact .init
  | step hr hs ih =>
    rcases sim (inv_reach hd hr) hs with ⟨h, _⟩ | h | ⟨h, _⟩ | ⟨t, _, h, h', _⟩
    · rw [h]; exact ih
    · exact ih.step h
    · exact ih.step h
    · exact (ih.step h).step h'

end Duo

end Xeus
