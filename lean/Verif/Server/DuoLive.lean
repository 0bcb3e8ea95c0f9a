import Verif.Server.DuoSpec
import Verif.Server.DuoLemmas
import Verif.Kernel.PropsInput

/-!
# The split servers with internal requests: progress (no property statements here)
-/

namespace Xeus

open Spec K

variable {σ : Type} {env : Env} {I : Interp σ}

/-! ## What is sent is not the command -/

namespace A

variable {S α β : Type} {P : Frame → Prop}

theorem asks_bind {m : A S α} {g : α → A S β} (hm : m.Asks P) (hg : ∀ a, (g a).Asks P) : (m >>= g).Asks P := by
  show (m.bind g).Asks P
  induction m with
  | done r => cases r <;> first | exact hg _ | trivial
  | act f k ih => exact fun r => ih r (hm r)
  | ask t k ih => exact ⟨hm.1, fun r => ih r (hm.2 r)⟩

theorem asks_attempt {m : A S α} (hm : m.Asks P) : m.attempt.Asks P := by
  induction m with
  | done r => cases r <;> trivial
  | act f k ih => exact fun r => ih r (hm r)
  | ask t k ih => exact ⟨hm.1, fun r => ih r (hm.2 r)⟩

theorem asks_ofK (m : K S α) : (ofK m).Asks P := by
  induction m with
  | done r => trivial
  | act f k ih => exact fun r => ih r

theorem asks_catchStd {m : A S α} {h : Exc → A S α} (hm : m.Asks P) (hh : ∀ e, (h e).Asks P) : (catchStd m h).Asks P := by
  refine asks_bind (asks_attempt hm) fun r => ?_
  cases r with
  | ok a => trivial
  | error e =>
    simp only
    split
    · exact hh e
    · trivial

end A

theorem asks_askShell (hs : Sane env) {j : Json} (hj : j.canon = true) :
    (askShell env j : A (World σ) Json).Asks (· ≠ lit "stop") := by
  unfold askShell
  have hne := C30_not_stop env hs j hj
  cases hd : env.J.dump .strict j with
  | none =>
    simp only [Codec.writeZmq, hd]
    exact trivial
  | some t =>
    rw [hd] at hne
    simp only [Codec.writeZmq, hd]
    refine ⟨fun h => hne (by rw [h]), fun r => ?_⟩
    cases r <;> exact trivial

theorem asks_execA (hs : Sane env) {α : Type} (p : Prog σ DOp α) (hp : Sends (fun j => j.canon = true) p) :
    (p.execA (DOp.semA env)).Asks (· ≠ lit "stop") := by
  induction p with
  | ret a => trivial
  | throw e => trivial
  | ub w => trivial
  | hang => trivial
  | get k ih => exact A.asks_bind (A.asks_ofK _) fun s => ih s (hp s)
  | set s k ih => exact A.asks_bind (A.asks_ofK _) fun _ => ih hp
  | call o k ih =>
    refine A.asks_bind (A.asks_attempt ?_) fun r => ih r (hp.2 r)
    cases o with
    | base o => exact A.asks_ofK _
    | toShell j => exact A.asks_bind (asks_askShell hs (hp.1 j rfl)) fun _ => trivial

theorem asks_msg (hs : Sane env) (hd : SendsValues I) {m : XMessage} (h1 : m.body.header.canon = true)
    (h2 : m.body.content.canon = true) : (dispatchMsgA env I m .control).Asks (· ≠ lit "stop") := by
  refine A.asks_bind (A.asks_ofK _) fun _ => A.asks_bind (A.asks_ofK _) fun _ => A.asks_bind (A.asks_ofK _) fun _ =>
    A.asks_bind (by exact trivial) fun t => A.asks_bind ?_ fun _ => A.asks_ofK _
  unfold handleTypeA
  cases getHandler t with
  | none => trivial
  | some r =>
    refine A.asks_catchStd ?_ fun _ => trivial
    cases r with
    | debug =>
      show (debugRequestA env I m .control).Asks _
      unfold debugRequestA
      cases hI : I.debug with
      | none => trivial
      | some d =>
        refine A.asks_bind ?_ fun _ => A.asks_bind (A.asks_ofK _) fun _ => A.asks_ofK _
        refine A.asks_bind (A.asks_ofK _) fun _ => A.asks_bind (A.asks_attempt (asks_execA hs _ (hd d hI _ _ h1 h2))) fun r => ?_
        cases r with
        | ok a => trivial
        | error e => exact A.asks_bind (A.asks_ofK _) fun _ => trivial
    | _ => exact A.asks_ofK _

theorem sound_of (hs : Sane env) (hd : SendsValues I) : Duo.Sound env I := by
  intro q
  unfold dispatchA
  cases hq : deserialize env.C env.J env.auth q with
  | ub w => exact trivial
  | hang => exact trivial
  | exc e =>
    show (if e.isStd then (pure () : A (World σ) Unit) else A.throw e).Asks _
    split <;> trivial
  | ok m =>
    obtain ⟨h1, _, _, h2⟩ := accepted_parsed hs ((C03_accepted_iff ..).1 hq)
    exact asks_msg hs hd h1.1 h2.1

theorem A.can_step {S α : Type} {m : A S α} {v : α} (h1 : ∀ r, m = .done r → r = .ok v) (h2 : ∀ t k, m ≠ .ask t k)
    (h3 : m ≠ .done (.ok v)) (s : S) : ∃ p s', m.step s = some (p, s') := by
  cases m with
  | done r => exact absurd (congrArg A.done (h1 r rfl)) h3
  | act f k => exact ⟨_, _, rfl⟩
  | ask t k => exact absurd rfl (h2 t k)

theorem mem_evsOf {l : List DEv} {e : SEv} : e ∈ evsOf l ↔ .ev e ∈ l := by
  induction l with
  | nil => simp [evsOf]
  | cons x l ih =>
    cases x with
    | ev x => show e ∈ x :: evsOf l ↔ _; simp [ih]
    | _ => show e ∈ evsOf l ↔ _; simp [ih]

/-! ## Progress -/

/-- One program results from another one by a step or an answer. -/
def NextA (p' p : A (World σ) Unit) : Prop :=
  (∃ w w', p.step w = some (p', w')) ∨ ∃ t k r, p = .ask t k ∧ p' = k (.ok r)

theorem nextA_wf : WellFounded (NextA (σ := σ)) := by
  refine ⟨fun p => ?_⟩
  have hd : ∀ r, Acc (NextA (σ := σ)) (.done r) := fun r => ⟨_, fun _ h => by
    rcases h with ⟨_, _, h⟩ | ⟨_, _, _, h, _⟩ <;> cases h⟩
  induction p with
  | done r => exact hd r
  | act f k ih =>
    refine ⟨_, ?_⟩
    rintro p' (⟨w, w', h⟩ | ⟨_, _, _, h, _⟩)
    · simp only [A.step, Option.some.injEq] at h
      rcases hf : f w with ⟨r, w₁⟩
      rw [hf] at h
      cases r <;> simp only [Prod.mk.injEq] at h <;> obtain ⟨rfl, _⟩ := h
      · exact ih _
      · exact ih _
      · exact hd _
      · exact hd _
    · cases h
  | ask t k ih =>
    refine ⟨_, ?_⟩
    rintro p' (⟨w, w', h⟩ | ⟨_, _, _, h, rfl⟩)
    · cases h
    · cases h; exact ih _

/-- The same for an internal request. -/
def NextF (p' p : K (World σ) Frame) : Prop := ∃ w w', p.step w = some (p', w')

theorem nextF_wf : WellFounded (NextF (σ := σ)) := by
  refine ⟨fun p => ?_⟩
  have hd : ∀ r, Acc (NextF (σ := σ)) (.done r) := fun r => ⟨_, fun _ ⟨_, _, h⟩ => by cases h⟩
  induction p with
  | done r => exact hd r
  | act f k ih =>
    refine ⟨_, ?_⟩
    rintro p' ⟨w, w', h⟩
    simp only [K.step, Option.some.injEq] at h
    rcases hf : f w with ⟨r, w₁⟩
    rw [hf] at h
    cases r <;> simp only [Prod.mk.injEq] at h <;> obtain ⟨rfl, _⟩ := h
    · exact ih _
    · exact ih _
    · exact hd _
    · exact hd _

theorem lex_wf {α : Type _} {β : Type _} {r : α → α → Prop} {q : β → β → Prop} (hr : WellFounded r) (hq : WellFounded q) : WellFounded (Prod.Lex r q) :=
  ⟨fun x => Prod.lexAccessible (hr.apply x.1) (fun b => hq.apply b) x.2⟩

/-- How far the shell thread is. -/
abbrev Near (σ : Type) := Nat × A (World σ) Unit × K (World σ) Frame

abbrev Nearer : Near σ → Near σ → Prop := Prod.Lex (· < ·) (Prod.Lex NextA NextF)

theorem nearer_wf : WellFounded (Nearer (σ := σ)) := lex_wf Nat.lt_wfRel.wf (lex_wf nextA_wf nextF_wf)

namespace Duo

theorem reach_exec {st : Start σ} (e : Execution (Step env I)) (h0 : e.state 0 = init st) (m : Nat) : Reach env I st (e.state m) := by
  induction m with
  | zero => rw [h0]; exact .init
  | succ m ih =>
    have := e.ok m
    cases hw : e.who m with
    | none => rw [hw] at this; simp only at this; rw [this]; exact ih
    | some a => rw [hw] at this; exact ih.step this

/-- How far an internal request is from being answered. -/
def near (s : Duo σ) : Near σ :=
  if s.calling = true then
    match s.inner with
    | some p => (1, .done (.ok ()), p)
    | none =>
      if s.rep = none then
        match s.spc with
        | .asked true => (2, .done (.ok ()), .done .hang)
        | .busy true => (3, s.sprog, .done .hang)
        | .ready _ true => (4, .done (.ok ()), .done .hang)
        | .sampled _ => (5, .done (.ok ()), .done .hang)
        | .poll => (6, .done (.ok ()), .done .hang)
        | .asked false => (7, .done (.ok ()), .done .hang)
        | .busy false => (8, s.sprog, .done .hang)
        | .ready _ false => (9, .done (.ok ()), .done .hang)
        | _ => (10, .done (.ok ()), .done .hang)
      else (0, .done (.ok ()), .done .hang)
  else (11, .done (.ok ()), .done .hang)

/-- Who has to act for the control thread to go on. -/
def helper (s : Duo σ) : SWho := if s.calling = true ∧ s.rep = none then .shell else .control

theorem near_same {s s' : Duo σ} (h1 : s'.calling = s.calling) (h2 : s'.inner = s.inner) (h3 : s'.rep = s.rep)
    (h4 : s.calling = true → s.rep = none → s'.spc = s.spc ∧ s'.sprog = s.sprog) : near s' = near s := by
  unfold near
  rw [h1, h2, h3]
  split
  · rename_i hc
    cases hin : s.inner with
    | some p => rfl
    | none =>
      simp only
      split
      · rename_i hr
        obtain ⟨g1, g2⟩ := h4 hc hr
        rw [g1, g2]
      · rfl
  · rfl

theorem helper_same {s s' : Duo σ} (h1 : s'.calling = s.calling) (h3 : s'.rep = s.rep) : helper s' = helper s := by
  unfold helper
  rw [h1, h3]

/-- While the control thread handles a message. -/
abbrev Busier : (A (World σ) Unit × Near σ) → (A (World σ) Unit × Near σ) → Prop := Prod.Lex NextA Nearer

theorem busier_wf : WellFounded (Busier (σ := σ)) := lex_wf nextA_wf nearer_wf

theorem busy_step {a : SWho} {s s' : Duo σ} (hi : Inv s) (hb : s.kpc = .busy) (h : Step env I a s s') :
    s'.kpc ≠ .busy ∨ Busier (s'.cprog, near s') (s.cprog, near s) ∨
      (a ≠ helper s ∧ (s'.cprog, near s') = (s.cprog, near s) ∧ helper s' = helper s) := by
  have other : ∀ {s' : Duo σ}, s'.calling = s.calling → s'.inner = s.inner → s'.rep = s.rep → s'.cprog = s.cprog →
      (s.calling = true → s.rep = none → s'.spc = s.spc ∧ s'.sprog = s.sprog) →
      a ≠ helper s → (a ≠ helper s ∧ (s'.cprog, near s') = (s.cprog, near s) ∧ helper s' = helper s) := by
    intro s' h1 h2 h3 h4 h5 h6
    exact ⟨h6, by rw [h4, near_same h1 h2 h3 h5], helper_same h1 h3⟩
  have notCalling : s.calling = true → ∃ t k, s.cprog = .ask t k := by
    intro h
    cases hi.link <;> simp_all
  -- a step of the shell thread that is not needed
  have idle : ∀ {s' : Duo σ}, a = .shell → ¬ (s.calling = true ∧ s.rep = none) → s'.calling = s.calling → s'.inner = s.inner → s'.rep = s.rep →
      s'.cprog = s.cprog → (a ≠ helper s ∧ (s'.cprog, near s') = (s.cprog, near s) ∧ helper s' = helper s) := by
    intro s' h0 hn h1 h2 h3 h4
    exact other h1 h2 h3 h4 (fun h h' => absurd ⟨h, h'⟩ hn) (by rw [h0]; unfold helper; rw [if_neg hn]; simp)
  have cmdOf : s.calling = true ∧ s.rep = none → s.inner = none → s.cmd ≠ none := by
    rintro ⟨h1, h2⟩ h3
    cases hi.link <;> simp_all
  have quiet : s.spc ≠ .echo → s.inner = none := by
    intro h
    cases hi.link <;> simp_all
  cases h with
  | arriveShell _ q => exact .inr (.inr (other rfl rfl rfl rfl (fun _ _ => ⟨rfl, rfl⟩) (by unfold helper; split <;> simp)))
  | arriveControl _ q => exact .inr (.inr (other rfl rfl rfl rfl (fun _ _ => ⟨rfl, rfl⟩) (by unfold helper; split <;> simp)))
  | arriveStdin _ q => exact .inr (.inr (other rfl rfl rfl rfl (fun _ _ => ⟨rfl, rfl⟩) (by unfold helper; split <;> simp)))
  | ping _ i m => exact .inr (.inr (other rfl rfl rfl rfl (fun _ _ => ⟨rfl, rfl⟩) (by unfold helper; split <;> simp)))
  | publisher _ b hb => exact .inr (.inr (other rfl rfl rfl rfl (fun _ _ => ⟨rfl, rfl⟩) (by unfold helper; split <;> simp)))
  | heartbeat _ b hb => exact .inr (.inr (other rfl rfl rfl rfl (fun _ _ => ⟨rfl, rfl⟩) (by unfold helper; split <;> simp)))
  | workControl _ p w' keep hp hs hk => exact .inr (.inl (.left _ _ (.inl ⟨_, _, hs⟩)))
  | call _ text k hp hc hk =>
    have hq : s.inner = none ∧ s.rep = none := by cases hi.link <;> simp_all
    refine .inr (.inl (.right _ ?_))
    unfold near
    simp only [hq.1, hq.2, if_true, hc]
    split <;> exact .left _ _ (by omega)
  | answer _ text k r hp hc hk hr =>
    refine .inr (.inl (.left _ _ (.inr ⟨text, k, r, hk, rfl⟩)))
  | doneControl _ hp hd => exact .inl (by simp)
  | start _ hp => rw [hb] at hp; cases hp
  | test _ hp _ => rw [hb] at hp; cases hp
  | leave _ hp _ => rw [hb] at hp; cases hp
  | takeControl _ q r hp hq => rw [hb] at hp; cases hp
  | stopSh _ hp => rw [hb] at hp; cases hp
  | waitSh _ hp _ => rw [hb] at hp; cases hp
  | stopPub _ hp => rw [hb] at hp; cases hp
  | waitPub _ hp _ => rw [hb] at hp; cases hp
  | stopHb _ hp => rw [hb] at hp; cases hp
  | waitHb _ hp _ => rw [hb] at hp; cases hp
  | notify _ hp => rw [hb] at hp; cases hp
  | sample0 _ r hp hr =>
    by_cases hn : s.calling = true ∧ s.rep = none
    · have h1 := quiet (by simp [hp])
      refine .inr (.inl (.right _ ?_))
      unfold near
      simp only [hn.1, h1, hn.2, if_true, hp]
      exact .left _ _ (by omega)
    · exact .inr (.inr (idle rfl hn rfl rfl rfl rfl))
  | sample1 _ r0 hp hr =>
    by_cases hn : s.calling = true ∧ s.rep = none
    · have h1 := quiet (by simp [hp])
      have h2 : s.cmd.isSome = true := Option.isSome_iff_ne_none.2 (cmdOf hn h1)
      refine .inr (.inl (.right _ ?_))
      unfold near
      simp only [hn.1, h1, hn.2, if_true, hp, h2]
      exact .left _ _ (by omega)
    · exact .inr (.inr (idle rfl hn rfl rfl rfl rfl))
  | nothing _ hp hc =>
    by_cases hn : s.calling = true ∧ s.rep = none
    · exact absurd hc (cmdOf hn (quiet (by simp [hp])))
    · exact .inr (.inr (idle rfl hn rfl rfl rfl rfl))
  | takeShell _ r1 q r hp hq =>
    by_cases hn : s.calling = true ∧ s.rep = none
    · have h1 := quiet (by simp [hp])
      cases r1 with
      | true =>
        refine .inr (.inl (.right _ ?_))
        unfold near
        simp only [hn.1, h1, hn.2, if_true, hp]
        exact .left _ _ (by omega)
      | false =>
        refine .inr (.inl (.right _ ?_))
        unfold near
        simp only [hn.1, h1, hn.2, if_true, hp]
        exact .left _ _ (by omega)
    · exact .inr (.inr (idle rfl hn rfl rfl rfl rfl))
  | skip _ r1 hp =>
    by_cases hn : s.calling = true ∧ s.rep = none
    · have h1 := quiet (by simp [hp])
      cases r1 with
      | true =>
        refine .inr (.inl (.right _ ?_))
        unfold near
        simp only [hn.1, h1, hn.2, if_true, hp]
        exact .left _ _ (by omega)
      | false =>
        refine .inr (.inl (.right _ ?_))
        unfold near
        simp only [hn.1, h1, hn.2, if_true, hp]
        exact .left _ _ (by omega)
    · exact .inr (.inr (idle rfl hn rfl rfl rfl rfl))
  | workShell _ r1 p w' keep hp hs hk =>
    by_cases hn : s.calling = true ∧ s.rep = none
    · have h1 := quiet (by simp [hp])
      cases r1 with
      | true =>
        refine .inr (.inl (.right _ ?_))
        unfold near
        simp only [effect, hn.1, h1, hn.2, if_true, hp]
        exact .right _ (.left _ _ (.inl ⟨_, _, hs⟩))
      | false =>
        refine .inr (.inl (.right _ ?_))
        unfold near
        simp only [effect, hn.1, h1, hn.2, if_true, hp]
        exact .right _ (.left _ _ (.inl ⟨_, _, hs⟩))
    · exact .inr (.inr (idle rfl hn rfl rfl rfl rfl))
  | doneShell _ r1 hp hd =>
    by_cases hn : s.calling = true ∧ s.rep = none
    · have h1 := quiet (by simp [hp])
      cases r1 with
      | true =>
        refine .inr (.inl (.right _ ?_))
        unfold near
        simp only [hn.1, h1, hn.2, if_true, hp]
        exact .left _ _ (by omega)
      | false =>
        refine .inr (.inl (.right _ ?_))
        unfold near
        simp only [hn.1, h1, hn.2, if_true, hp]
        exact .left _ _ (by omega)
    · exact .inr (.inr (idle rfl hn rfl rfl rfl rfl))
  | again _ hp =>
    by_cases hn : s.calling = true ∧ s.rep = none
    · have h1 := quiet (by simp [hp])
      refine .inr (.inl (.right _ ?_))
      unfold near
      simp only [hn.1, h1, hn.2, if_true, hp]
      exact .left _ _ (by omega)
    · exact .inr (.inr (idle rfl hn rfl rfl rfl rfl))
  | recvStop _ hp hm =>
    exfalso
    cases hi.link <;> simp_all
  | recvInternal _ text hp hm ht =>
    have hq : s.calling = true ∧ s.rep = none ∧ s.inner = none := by cases hi.link <;> simp_all
    refine .inr (.inl (.right _ ?_))
    unfold near
    simp only [hq.1, hq.2.1, hq.2.2, if_true, hp]
    exact .left _ _ (by omega)
  | workInternal _ m p w' keep hp hm hs hk =>
    have hc : s.calling = true := by cases hi.link <;> simp_all
    refine .inr (.inl (.right _ ?_))
    unfold near
    simp only [effect, hc, hm, if_true]
    exact .right _ (.right _ ⟨_, _, hs⟩)
  | doneInternal _ r hp hm =>
    have hc : s.calling = true := by cases hi.link <;> simp_all
    refine .inr (.inl (.right _ ?_))
    unfold near
    simp only [hc, hm, if_true]
    exact .left _ _ (by omega)
  | sendCtl _ hp hm =>
    exfalso
    cases hi.link <;> simp_all

/-- The control thread goes on, with the help of the shell thread. -/
theorem can_busy {s : Duo σ} (hi : Inv s) (hw : Well s) (hq : ∀ r, s.spc = .ready true r → s.w.shellQ ≠ []) (hb : s.kpc = .busy) :
    CanStep (Step env I) (helper s) s := by
  obtain ⟨w1, w2, w3, w4⟩ := hw
  unfold helper
  split
  · rename_i hn
    by_cases hin : s.inner = none
    · have hl : ∃ text, s.cmd = some text ∧ text ≠ lit "stop" ∧ s.spc ≠ .echo ∧ s.spc ≠ .over := by cases hi.link <;> simp_all
      obtain ⟨text, hc, hne, he, ho⟩ := hl
      cases hs : s.spc with
      | poll =>
        by_cases h : s.w.shellQ = []
        · exact ⟨_, .sample0 s false hs (by simp [h])⟩
        · exact ⟨_, .sample0 s true hs (by simp [h])⟩
      | sampled r0 => exact ⟨_, .sample1 s r0 hs (.inr (by rw [hc]; simp))⟩
      | ready r0 r1 =>
        cases r0 with
        | true =>
          cases h : s.w.shellQ with
          | nil => exact absurd h (hq r1 hs)
          | cons q r => exact ⟨_, .takeShell s r1 q r hs h⟩
        | false => exact ⟨_, .skip s r1 hs⟩
      | busy r1 =>
        by_cases hd : s.sprog = .done (.ok ())
        · exact ⟨_, .doneShell s r1 hs hd⟩
        · obtain ⟨p', w', h⟩ := A.can_step w2 w3 hd s.w
          exact ⟨_, .workShell s r1 p' w' _ hs h (fun _ => List.Sublist.refl _)⟩
      | asked r1 =>
        cases r1 with
        | true => exact ⟨_, .recvInternal s text hs hc hne⟩
        | false => exact ⟨_, .again s hs⟩
      | echo => exact absurd hs he
      | over => exact absurd hs ho
    · have hl : s.spc = .echo := by cases hi.link <;> simp_all
      obtain ⟨p, hp⟩ := Option.ne_none_iff_exists'.1 hin
      cases p with
      | done r =>
        obtain ⟨a, rfl⟩ := w4 r hp
        exact ⟨_, .doneInternal s a hl hp⟩
      | act f k =>
        exact ⟨_, .workInternal s _ _ _ _ hl hp rfl (fun _ => List.Sublist.refl _)⟩
  · rename_i hn
    by_cases hc : s.calling = true
    · have hl : ∃ text k r, s.cprog = .ask text k ∧ s.rep = some r := by cases hi.link <;> simp_all
      obtain ⟨text, k, r, h1, h2⟩ := hl
      exact ⟨_, .answer s text k r hb hc h1 h2⟩
    · have hc : s.calling = false := by simpa using hc
      by_cases ha : ∃ t k, s.cprog = .ask t k
      · obtain ⟨t, k, h⟩ := ha
        exact ⟨_, .call s t k hb hc h⟩
      · by_cases hd : s.cprog = .done (.ok ())
        · exact ⟨_, .doneControl s hb hd⟩
        · obtain ⟨p', w', h⟩ := A.can_step w1 (fun t k h => ha ⟨t, k, h⟩) hd s.w
          exact ⟨_, .workControl s p' w' _ hb h (fun _ => List.Sublist.refl _)⟩

/-- What was seen is there. -/
theorem seen_reach (hd : Sound env I) {st : Start σ} {s : Duo σ} (h : Reach env I st s) (hu : Undrained s) :
    (s.spc = .sampled true ∨ ∃ r, s.spc = .ready true r) → s.w.shellQ ≠ [] := by
  intro hs
  have hn : Split.NoDrain (abs env I s) := fun q hq => hu q (mem_evsOf.1 hq)
  refine Split.seen_reach (abs_reach hd h) hn ?_
  show s.spcOf = _ ∨ ∃ r, s.spcOf = _
  unfold spcOf
  rcases hs with hs | ⟨r, hs⟩
  · exact .inl (by rw [hs]; cases s.calling <;> rfl)
  · exact .inr (by rw [hs]; cases s.calling <;> cases r <;> exact ⟨_, rfl⟩)

theorem busy_next {a : SWho} {s s' : Duo σ} (hb : s.kpc = .busy) (h : Step env I a s s') :
    s'.kpc = .busy ∨ (s'.kpc = .loop ∧ s'.log = s.log) := by
  cases h with
  | doneControl _ hp hd => exact .inr ⟨rfl, rfl⟩
  | _ => first
    | exact .inl hb
    | (rename_i hp; rw [hb] at hp; cases hp)
    | (rename_i hp _; rw [hb] at hp; cases hp)

/-- The control thread finishes every message. -/
theorem free_control (hd : Sound env I) {st : Start σ} (e : Execution (Step env I)) (h0 : e.state 0 = init st)
    (hfc : Fair e .control) (hfs : Fair e .shell) (n : Nat) (hw : ∀ m, n ≤ m → Well (e.state m))
    (hu : ∀ m, n ≤ m → Undrained (e.state m)) : ∃ m, n ≤ m ∧ (e.state m).kpc ≠ .busy := by
  refine progress busier_wf e (fun s => Reach env I st s ∧ Well s ∧ Undrained s) (fun s => s.kpc ≠ .busy)
    (fun s => (s.cprog, near s)) helper n (fun m hm => ⟨reach_exec e h0 m, hw m hm, hu m hm⟩) ?_ ?_ ?_
  · intro s _ _
    unfold helper
    split <;> assumption
  · rintro s ⟨h1, h2, h3⟩ hg
    exact can_busy (inv_reach hd h1) h2 (fun r hr => seen_reach hd h1 h3 (.inr ⟨r, hr⟩)) (Classical.not_not.1 hg)
  · rintro a s s' ⟨h1, h2, h3⟩ _ hg hs
    exact busy_step (inv_reach hd h1) (Classical.not_not.1 hg) hs

end Duo

end Xeus
