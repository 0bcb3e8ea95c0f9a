import Verif.Server.DuoLive

/-!
# The split servers with internal requests: every message is served, and the servers end (no property statements here)
-/

namespace Xeus

open Spec K

variable {σ : Type} {env : Env} {I : Interp σ}

namespace Duo

theorem log_step {a : SWho} {s s' : Duo σ} (h : Step env I a s s') : s.log <+: s'.log := by
  cases h with
  | workControl _ p w' keep hp hs _ => exact List.prefix_append _ _
  | workShell _ r1 p w' keep hp hs _ => exact List.prefix_append _ _
  | workInternal _ m p w' keep hp hm hs _ => exact List.prefix_append _ _
  | _ => first | exact List.prefix_append _ _ | exact List.prefix_refl _

theorem log_exec (e : Execution (Step env I)) {n m : Nat} (h : n ≤ m) : (e.state n).log <+: (e.state m).log := by
  induction h with
  | refl => exact List.prefix_refl _
  | @step m _ ih =>
    have := e.ok m
    cases hw : e.who m with
    | none => rw [hw] at this; simp only at this; rw [this]; exact ih
    | some a => rw [hw] at this; exact ih.trans (log_step this)

theorem evs_prefix {a b : List DEv} (h : a <+: b) : evsOf a <+: evsOf b := by
  obtain ⟨x, rfl⟩ := h
  rw [evsOf_append]
  exact List.prefix_append _ _

/-- How many messages were received. -/
def count (c : Chan) (s : Duo σ) : Nat := (takenFrom c (evsOf s.log)).length

theorem count_same {c : Chan} {s s' : Duo σ} {es : List DEv} (h : s'.log = s.log ++ es) (he : takenFrom c (evsOf es) = []) :
    count c s' = count c s := by
  unfold count; rw [h, evsOf_append, takenFrom_append, he, List.append_nil]

theorem count_le {c : Chan} {a : SWho} {s s' : Duo σ} (h : Step env I a s s') : count c s ≤ count c s' := by
  obtain ⟨es, he⟩ := log_step h
  unfold count
  rw [← he, evsOf_append, takenFrom_append, List.length_append]
  omega

/-! ## Control messages -/

/-- How far the control thread is from receiving a message. -/
def controlStage (s : Duo σ) : Nat × (A (World σ) Unit × Near σ) :=
  match s.kpc with
  | .recv => (0, .done (.ok ()), 0, .done (.ok ()), .done .hang)
  | .loop => (1, .done (.ok ()), 0, .done (.ok ()), .done .hang)
  | .busy => (2, s.cprog, near s)
  | _ => (3, .done (.ok ()), 0, .done (.ok ()), .done .hang)

abbrev Sooner : Nat × (Nat × (A (World σ) Unit × Near σ)) → Nat × (Nat × (A (World σ) Unit × Near σ)) → Prop :=
  Prod.Lex (· < ·) (Prod.Lex (· < ·) Busier)

theorem sooner_wf : WellFounded (Sooner (σ := σ)) := lex_wf Nat.lt_wfRel.wf (lex_wf Nat.lt_wfRel.wf busier_wf)

/-- Who has to act for the next control message to be received. -/
def turn (s : Duo σ) : SWho := if s.kpc = .busy then helper s else .control

theorem turn_control {s : Duo σ} (h : s.kpc ≠ .busy) : turn s = .control := if_neg h

theorem idle_same {s s' : Duo σ} (hb : s.kpc ≠ .busy) (h : s'.kpc = s.kpc) : controlStage s' = controlStage s ∧ turn s' = turn s := by
  refine ⟨?_, by unfold turn; rw [h, if_neg hb, if_neg hb]⟩
  unfold controlStage
  rw [h]
  split <;> first | rfl | simp_all

theorem control_step {k : Nat} {a : SWho} {s s' : Duo σ} (hi : Inv s)
    (hpc : s.kpc = .entry ∨ s.kpc = .loop ∨ s.kpc = .recv ∨ s.kpc = .busy) (hfl : s.kpc = .loop → s.flag = false)
    (hk : count .control s ≤ k) (h : Step env I a s s') :
    Sooner (k + 1 - count .control s', controlStage s') (k + 1 - count .control s, controlStage s) ∨
      (a ≠ turn s ∧ (k + 1 - count .control s', controlStage s') = (k + 1 - count .control s, controlStage s) ∧ turn s' = turn s) := by
  have hle := count_le (c := .control) h
  -- the stages decrease
  have dec : Prod.Lex (· < ·) Busier (controlStage s') (controlStage s) →
      Sooner (k + 1 - count .control s', controlStage s') (k + 1 - count .control s, controlStage s) := by
    intro hl
    by_cases he : count .control s = count .control s'
    · rw [he]; exact .right _ hl
    · exact .left _ _ (by omega)
  have stay : a ≠ turn s → controlStage s' = controlStage s ∧ turn s' = turn s →
      Sooner (k + 1 - count .control s', controlStage s') (k + 1 - count .control s, controlStage s) ∨
      (a ≠ turn s ∧ (k + 1 - count .control s', controlStage s') = (k + 1 - count .control s, controlStage s) ∧ turn s' = turn s) := by
    intro h1 h2
    by_cases he : count .control s = count .control s'
    · exact .inr ⟨h1, by rw [he, h2.1], h2.2⟩
    · exact .inl (.left _ _ (by omega))
  by_cases hb : s.kpc = .busy
  · have e2 : controlStage s = (2, s.cprog, near s) := by unfold controlStage; rw [hb]
    rcases busy_next hb h with hb' | ⟨hl, hlog⟩
    · have e1 : controlStage s' = (2, s'.cprog, near s') := by unfold controlStage; rw [hb']
      have t1 : turn s' = helper s' := if_pos hb'
      have t2 : turn s = helper s := if_pos hb
      rcases busy_step hi hb h with h1 | h1 | ⟨h1, h2, h3⟩
      · exact absurd hb' h1
      · exact .inl (dec (by rw [e1, e2]; exact .right _ h1))
      · exact stay (by rw [t2]; exact h1) ⟨by rw [e1, e2, h2], by rw [t1, t2, h3]⟩
    · refine .inl (dec ?_)
      have e1 : controlStage s' = (1, .done (.ok ()), 0, .done (.ok ()), .done .hang) := by unfold controlStage; rw [hl]
      rw [e1, e2]
      exact .left _ _ (by omega)
  · have ht : turn s = .control := turn_control hb
    cases h with
    | start _ hp =>
      refine .inl (dec ?_)
      unfold controlStage; simp only [hp]
      exact .left _ _ (by omega)
    | test _ hp _ =>
      refine .inl (dec ?_)
      unfold controlStage; simp only [hp]
      exact .left _ _ (by omega)
    | leave _ hp hf => rw [hfl hp] at hf; cases hf
    | takeControl _ q r hp hq =>
      refine .inl (.left _ _ ?_)
      have : count .control { s with
          controlQ := r, cprog := dispatchA env I q .control, kpc := .busy, log := s.log ++ [.ev (.act (.took .control q))] } =
          count .control s + 1 := by
        simp [count, evsOf, takenFrom_append, takenFrom]
      rw [this]
      omega
    | workControl _ p w' keep hp hs _ => exact absurd hp hb
    | call _ text k hp hc hk => exact absurd hp hb
    | answer _ text k r hp hc hk hr => exact absurd hp hb
    | doneControl _ hp hd => exact absurd hp hb
    | stopSh _ hp => rw [hp] at hpc; simp at hpc
    | waitSh _ hp _ => rw [hp] at hpc; simp at hpc
    | stopPub _ hp => rw [hp] at hpc; simp at hpc
    | waitPub _ hp _ => rw [hp] at hpc; simp at hpc
    | stopHb _ hp => rw [hp] at hpc; simp at hpc
    | waitHb _ hp _ => rw [hp] at hpc; simp at hpc
    | notify _ hp => rw [hp] at hpc; simp at hpc
    | _ => exact stay (by rw [ht]; simp) (idle_same hb rfl)

theorem control_waiting (hd : Sound env I) {st : Start σ} {s : Duo σ} (hr : Reach env I st s) {k : Nat}
    (h : k < (arrivedOn .control (evsOf s.log)).length) (hk : count .control s ≤ k) : s.controlQ ≠ [] :=
  Split.control_waiting (abs_reach hd hr) h hk

theorem shell_waiting (hd : Sound env I) {st : Start σ} {s : Duo σ} (hr : Reach env I st s) {k : Nat}
    (h : k < (arrivedOn .shell (evsOf s.log)).length) (hk : count .shell s ≤ k) : s.w.shellQ ≠ [] :=
  Split.shell_waiting (abs_reach hd hr) h hk

theorem serves_control (hd : Sound env I) {st : Start σ} (e : Execution (Step env I)) (h0 : e.state 0 = init st)
    (hfc : Fair e .control) (hfs : Fair e .shell) (n k : Nat)
    (hk : k < (arrivedOn .control (evsOf (e.state n).log)).length) (hw : ∀ m, n ≤ m → Well (e.state m))
    (hu : ∀ m, n ≤ m → Undrained (e.state m)) :
    ∃ m, n ≤ m ∧ (k < count .control (e.state m) ∨ ((e.state m).flag = true ∧ (e.state m).kpc ≠ .entry)) := by
  have pc : ∀ s, Reach env I st s → ¬ (s.flag = true ∧ s.kpc ≠ .entry) →
      s.kpc = .entry ∨ s.kpc = .loop ∨ s.kpc = .recv ∨ s.kpc = .busy := fun s h ha =>
    Split.control_pc (abs_reach hd h) ha
  refine progress sooner_wf e
    (fun s => Reach env I st s ∧ Well s ∧ Undrained s ∧ k < (arrivedOn .control (evsOf s.log)).length)
    (fun s => k < count .control s ∨ (s.flag = true ∧ s.kpc ≠ .entry)) (fun s => (k + 1 - count .control s, controlStage s)) turn n
    (fun m hm => ⟨reach_exec e h0 m, hw m hm, hu m hm,
      Nat.lt_of_lt_of_le hk (Main.arrived_mono (evs_prefix (log_exec e hm)))⟩) ?_ ?_ ?_
  · intro s _ _
    unfold turn helper
    split
    · split <;> assumption
    · assumption
  · rintro s ⟨h1, h2, h3, h4⟩ hg
    have hc : count .control s ≤ k := Nat.not_lt.1 fun h => hg (.inl h)
    by_cases hb : s.kpc = .busy
    · rw [show turn s = helper s from if_pos hb]
      exact can_busy (inv_reach hd h1) h2 (fun r hr => seen_reach hd h1 h3 (.inr ⟨r, hr⟩)) hb
    · rw [turn_control hb]
      rcases pc s h1 (fun h => hg (.inr h)) with h | h | h | h
      · exact ⟨_, .start s h⟩
      · cases hf : s.flag with
        | true => exact absurd (.inr ⟨hf, by simp [h]⟩) hg
        | false => exact ⟨_, .test s h hf⟩
      · cases hq : s.controlQ with
        | nil => exact absurd hq (control_waiting hd h1 h4 hc)
        | cons q r => exact ⟨_, .takeControl s q r h hq⟩
      · exact absurd h hb
  · rintro a s s' ⟨h1, h2, h3, h4⟩ _ hg hs
    have hc : count .control s ≤ k := Nat.not_lt.1 fun h => hg (.inl h)
    refine .inr (control_step (inv_reach hd h1) (pc s h1 fun h => hg (.inr h)) (fun hl => ?_) hc hs)
    cases hf : s.flag with
    | true => exact absurd (.inr ⟨hf, by simp [hl]⟩) hg
    | false => rfl

/-! ## Shell messages -/

/-- How far the shell thread is from receiving a message. -/
def shellStage (s : Duo σ) : Near σ :=
  match s.spc with
  | .ready true _ => (1, .done (.ok ()), .done .hang)
  | .sampled true => (2, .done (.ok ()), .done .hang)
  | .poll => (3, .done (.ok ()), .done .hang)
  | .asked false => (4, .done (.ok ()), .done .hang)
  | .busy false => (5, s.sprog, .done .hang)
  | .over => (6, .done (.ok ()), .done .hang)
  | .echo => (7, .done (.ok ()), s.inner.getD (.done .hang))
  | .asked true => (8, .done (.ok ()), .done .hang)
  | .busy true => (9, s.sprog, .done .hang)
  | .ready false _ => (10, .done (.ok ()), .done .hang)
  | .sampled false => (11, .done (.ok ()), .done .hang)

theorem shellStage_same {s s' : Duo σ} (h1 : s'.spc = s.spc) (h2 : s'.sprog = s.sprog) (h3 : s'.inner = s.inner) :
    shellStage s' = shellStage s := by
  unfold shellStage; rw [h1, h2, h3]

theorem can_shell {s : Duo σ} (hi : Inv s) (hw : Well s) (hq : s.w.shellQ ≠ []) (ho : s.spc ≠ .over) :
    CanStep (Step env I) .shell s := by
  obtain ⟨w1, w2, w3, w4⟩ := hw
  cases hs : s.spc with
  | poll => exact ⟨_, .sample0 s true hs (by simp [hq])⟩
  | sampled r0 =>
    cases r0 with
    | true => exact ⟨_, .sample1 s true hs (.inl rfl)⟩
    | false =>
      by_cases hc : s.cmd = none
      · exact ⟨_, .nothing s hs hc⟩
      · exact ⟨_, .sample1 s false hs (.inr hc)⟩
  | ready r0 r1 =>
    cases r0 with
    | true =>
      cases h : s.w.shellQ with
      | nil => exact absurd h hq
      | cons q r => exact ⟨_, .takeShell s r1 q r hs h⟩
    | false => exact ⟨_, .skip s r1 hs⟩
  | busy r1 =>
    by_cases hd : s.sprog = .done (.ok ())
    · exact ⟨_, .doneShell s r1 hs hd⟩
    · obtain ⟨p', w', h⟩ := A.can_step w2 w3 hd s.w
      exact ⟨_, .workShell s r1 p' w' _ hs h (fun _ => List.Sublist.refl _)⟩
  | asked r1 =>
    cases r1 with
    | true =>
      obtain ⟨t, ht⟩ := Option.ne_none_iff_exists'.1 (hi.seen (.inr (.inr hs)))
      by_cases hst : t = lit "stop"
      · exact ⟨_, .recvStop s hs (hst ▸ ht)⟩
      · exact ⟨_, .recvInternal s t hs ht hst⟩
    | false => exact ⟨_, .again s hs⟩
  | echo =>
    cases hin : s.inner with
    | none => exact ⟨_, .sendCtl s hs hin⟩
    | some p =>
      cases p with
      | done r =>
        obtain ⟨a, rfl⟩ := w4 r hin
        exact ⟨_, .doneInternal s a hs hin⟩
      | act f k => exact ⟨_, .workInternal s _ _ _ _ hs hin rfl (fun _ => List.Sublist.refl _)⟩
  | over => exact absurd hs ho

theorem shell_step {k : Nat} {a : SWho} {s s' : Duo σ} (hq : s.w.shellQ ≠ []) (hk : count .shell s ≤ k)
    (h : Step env I a s s') :
    Prod.Lex (· < ·) Nearer (k + 1 - count .shell s', shellStage s') (k + 1 - count .shell s, shellStage s) ∨
      (a ≠ .shell ∧ (k + 1 - count .shell s', shellStage s') = (k + 1 - count .shell s, shellStage s)) := by
  have hle := count_le (c := .shell) h
  have dec : Nearer (shellStage s') (shellStage s) →
      Prod.Lex (· < ·) Nearer (k + 1 - count .shell s', shellStage s') (k + 1 - count .shell s, shellStage s) := by
    intro hl
    by_cases he : count .shell s = count .shell s'
    · rw [he]; exact .right _ hl
    · exact .left _ _ (by omega)
  have stay : a ≠ .shell → s'.spc = s.spc → s'.sprog = s.sprog → s'.inner = s.inner →
      Prod.Lex (· < ·) Nearer (k + 1 - count .shell s', shellStage s') (k + 1 - count .shell s, shellStage s) ∨
      (a ≠ .shell ∧ (k + 1 - count .shell s', shellStage s') = (k + 1 - count .shell s, shellStage s)) := by
    intro h1 h2 h3 h4
    by_cases he : count .shell s = count .shell s'
    · exact .inr ⟨h1, by rw [he, shellStage_same h2 h3 h4]⟩
    · exact .inl (.left _ _ (by omega))
  cases h with
  | sample0 _ r hp h =>
    have : r = true := h.2 hq
    subst this
    refine .inl (dec ?_)
    unfold shellStage; simp only [hp]
    exact .left _ _ (by omega)
  | sample1 _ r0 hp _ =>
    refine .inl (dec ?_)
    unfold shellStage; simp only [hp]
    cases r0 <;> exact .left _ _ (by omega)
  | nothing _ hp _ =>
    refine .inl (dec ?_)
    unfold shellStage; simp only [hp]
    exact .left _ _ (by omega)
  | takeShell _ r1 q r hp h =>
    refine .inl (.left _ _ ?_)
    have : count .shell { s with
        w := { s.w with shellQ := r }, sprog := dispatchA env I q .shell
        spc := .busy r1, log := s.log ++ [.ev (.act (.took .shell q))] } = count .shell s + 1 := by
      simp [count, evsOf, takenFrom_append, takenFrom]
    rw [this]
    omega
  | skip _ r1 hp =>
    refine .inl (dec ?_)
    unfold shellStage; simp only [hp]
    cases r1 <;> exact .left _ _ (by omega)
  | workShell _ r1 p w' keep hp h' hk' =>
    refine .inl (dec ?_)
    unfold shellStage; simp only [effect, hp]
    cases r1 <;> exact .right _ (.left _ _ (.inl ⟨_, _, h'⟩))
  | doneShell _ r1 hp _ =>
    refine .inl (dec ?_)
    unfold shellStage; simp only [hp]
    cases r1 <;> exact .left _ _ (by omega)
  | again _ hp =>
    refine .inl (dec ?_)
    unfold shellStage; simp only [hp]
    exact .left _ _ (by omega)
  | recvStop _ hp _ =>
    refine .inl (dec ?_)
    unfold shellStage; simp only [hp]
    exact .left _ _ (by omega)
  | recvInternal _ t hp _ _ =>
    refine .inl (dec ?_)
    unfold shellStage; simp only [hp]
    exact .left _ _ (by omega)
  | workInternal _ m p w' keep hp hm h' hk' =>
    refine .inl (dec ?_)
    unfold shellStage; simp only [effect, hp, hm, Option.getD_some]
    exact .right _ (.right _ ⟨_, _, h'⟩)
  | doneInternal _ r hp hm =>
    refine .inl (dec ?_)
    unfold shellStage; simp only [hp]
    exact .left _ _ (by omega)
  | sendCtl _ hp _ =>
    refine .inl (dec ?_)
    unfold shellStage; simp only [hp]
    exact .left _ _ (by omega)
  | _ => exact stay (by simp) rfl rfl rfl

theorem serves_shell (hd : Sound env I) {st : Start σ} (e : Execution (Step env I)) (h0 : e.state 0 = init st) (hf : Fair e .shell) (n k : Nat)
    (hk : k < (arrivedOn .shell (evsOf (e.state n).log)).length) (hw : ∀ m, n ≤ m → Well (e.state m)) :
    ∃ m, n ≤ m ∧ (k < count .shell (e.state m) ∨ (e.state m).spc = .over) := by
  refine progress (lex_wf Nat.lt_wfRel.wf nearer_wf) e
    (fun s => Reach env I st s ∧ Well s ∧ k < (arrivedOn .shell (evsOf s.log)).length)
    (fun s => k < count .shell s ∨ s.spc = .over) (fun s => (k + 1 - count .shell s, shellStage s)) (fun _ => .shell) n
    (fun m hm => ⟨reach_exec e h0 m, hw m hm, Nat.lt_of_lt_of_le hk (Main.arrived_mono (evs_prefix (log_exec e hm)))⟩)
    (fun _ _ _ => hf) ?_ ?_
  · rintro s ⟨h1, h2, h3⟩ hg
    exact can_shell (inv_reach hd h1) h2 (shell_waiting hd h1 h3 (Nat.not_lt.1 fun h => hg (.inl h))) fun h => hg (.inr h)
  · rintro a s s' ⟨h1, h2, h3⟩ _ hg hs
    have hc : count .shell s ≤ k := Nat.not_lt.1 fun h => hg (.inl h)
    rcases shell_step (shell_waiting hd h1 h3 hc) hc hs with h | ⟨h, h'⟩
    · exact .inr (.inl h)
    · exact .inr (.inr ⟨h, h', rfl⟩)

/-- The shell thread finishes every message. -/
theorem free_shell (e : Execution (Step env I)) (hf : Fair e .shell) (n : Nat)
    (hw : ∀ m, n ≤ m → Well (e.state m)) : ∃ m, n ≤ m ∧ ∀ r, (e.state m).spc ≠ .busy r := by
  refine progress nextA_wf e Well (fun s => ∀ r, s.spc ≠ .busy r) (fun s => s.sprog) (fun _ => .shell) n hw (fun _ _ _ => hf) ?_ ?_
  · rintro s ⟨w1, w2, w3, w4⟩ hi
    have hb : ∃ r, s.spc = .busy r := Classical.byContradiction fun hn => hi fun r hr => hn ⟨r, hr⟩
    obtain ⟨r, hb⟩ := hb
    by_cases hd : s.sprog = .done (.ok ())
    · exact ⟨_, .doneShell s r hb hd⟩
    · obtain ⟨p', w', h⟩ := A.can_step w2 w3 hd s.w
      exact ⟨_, .workShell s r p' w' _ hb h (fun _ => List.Sublist.refl _)⟩
  · intro a s s' _ _ hi h
    have hb : ∃ r, s.spc = .busy r := Classical.byContradiction fun hn => hi fun r hr => hn ⟨r, hr⟩
    obtain ⟨r, hb⟩ := hb
    cases h with
    | workShell _ r1 p w' keep hp hs _ => exact .inr (.inl (.inl ⟨_, _, hs⟩))
    | doneShell _ r1 hp hd => exact .inl (by simp)
    | sample0 _ r hp h => rw [hb] at hp; cases hp
    | sample1 _ r0 hp _ => rw [hb] at hp; cases hp
    | nothing _ hp _ => rw [hb] at hp; cases hp
    | takeShell _ r1 q r hp h => rw [hb] at hp; cases hp
    | skip _ r1 hp => rw [hb] at hp; cases hp
    | again _ hp => rw [hb] at hp; cases hp
    | recvStop _ hp _ => rw [hb] at hp; cases hp
    | recvInternal _ t hp _ _ => rw [hb] at hp; cases hp
    | workInternal _ m p w' keep hp hm h' hk' => rw [hb] at hp; cases hp
    | doneInternal _ r hp hm => rw [hb] at hp; cases hp
    | sendCtl _ hp _ => rw [hb] at hp; cases hp
    | _ => exact .inr (.inr ⟨by simp, rfl, rfl⟩)

/-! ## The kernel -/

theorem conc_exec (hd : Sound env I) {st : Start σ} (e : Execution (Step env I)) (h0 : e.state 0 = init st) (G : World σ → Prop)
    (hg : ∀ i, G (e.state i).w) (n : Nat) : CRun env I st G (abs env I (e.state n)).c := by
  induction n with
  | zero =>
    have := hg 0
    rw [h0] at this ⊢
    rw [abs_init]
    exact .start this
  | succ n ih =>
    have := e.ok n
    cases hw : e.who n with
    | none => rw [hw] at this; simp only at this; rw [this]; exact ih
    | some a =>
      rw [hw] at this
      have hr := reach_exec e h0 n
      have ha := abs_reach hd hr
      have next : ∀ c, c = (abs env I (e.state n)).c ∨ CStep env I (abs env I (e.state n)).c c →
          c = (abs env I (e.state (n + 1))).c → CRun env I st G (abs env I (e.state (n + 1))).c := by
        rintro c (h | h) rfl
        · rw [h]; exact ih
        · exact ih.step h (hg (n + 1))
      cases sim (inv_reach hd hr) this with
      | same h _ => exact next _ (.inl (congrArg _ h)) rfl
      | one h => exact next _ (Split.step_conc ha h) rfl
      | inner h _ => exact next _ (Split.step_conc ha h) rfl
      | two t h1 h2 h3 _ =>
        refine next _ ?_ rfl
        rcases Split.step_conc (ha.step h2) h3 with h | h
        · exact .inl (h.trans h1)
        · rw [h1] at h; exact .inr h

/-! ## The end -/

/-- After the loop of the control thread. -/
def Past (s : Duo σ) : Prop := s.kpc ≠ .entry ∧ s.kpc ≠ .loop ∧ s.kpc ≠ .recv ∧ s.kpc ≠ .busy

theorem past_step {a : SWho} {s s' : Duo σ} (hp : Past s) (h : Step env I a s s') : Past s' := by
  obtain ⟨h1, h2, h3, h4⟩ := hp
  cases h with
  | start _ hp => exact absurd hp h1
  | test _ hp _ => exact absurd hp h2
  | leave _ hp _ => exact absurd hp h2
  | takeControl _ q r hp hq => exact absurd hp h3
  | workControl _ p w' keep hp hs _ => exact absurd hp h4
  | call _ text k hp hc hk => exact absurd hp h4
  | answer _ text k r hp hc hk hr => exact absurd hp h4
  | doneControl _ hp hd => exact absurd hp h4
  | stopSh _ hp => exact ⟨by simp, by simp, by simp, by simp⟩
  | waitSh _ hp _ => exact ⟨by simp, by simp, by simp, by simp⟩
  | stopPub _ hp => exact ⟨by simp, by simp, by simp, by simp⟩
  | waitPub _ hp _ => exact ⟨by simp, by simp, by simp, by simp⟩
  | stopHb _ hp => exact ⟨by simp, by simp, by simp, by simp⟩
  | waitHb _ hp _ => exact ⟨by simp, by simp, by simp, by simp⟩
  | notify _ hp => exact ⟨by simp, by simp, by simp, by simp⟩
  | _ => exact ⟨h1, h2, h3, h4⟩

theorem past_exec (e : Execution (Step env I)) {n m : Nat} (h : n ≤ m) (hp : Past (e.state n)) : Past (e.state m) := by
  induction h with
  | refl => exact hp
  | @step m _ ih =>
    have := e.ok m
    cases hw : e.who m with
    | none => rw [hw] at this; simp only at this; rw [this]; exact ih
    | some a => rw [hw] at this; exact past_step ih this

theorem not_calling {s : Duo σ} (hi : Inv s) (h : s.kpc ≠ .busy) : s.calling = false := by
  cases hi.link <;> simp_all

theorem leaving_next (hd : Sound env I) {st : Start σ} {a : SWho} {s s' : Duo σ} (hr : Reach env I st s)
    (hl : Split.Leaving (abs env I s)) (h : Step env I a s s') : Split.Leaving (abs env I s') := by
  cases sim (inv_reach hd hr) h with
  | same h _ => rw [h]; exact hl
  | one h => exact Split.leaving_step hl h
  | inner h _ => exact Split.leaving_step hl h
  | two t _ h2 h3 _ => exact Split.leaving_step (Split.leaving_step hl h2) h3

theorem leaving_exec (hd : Sound env I) {st : Start σ} (e : Execution (Step env I)) (h0 : e.state 0 = init st) {n m : Nat} (h : n ≤ m)
    (hl : Split.Leaving (abs env I (e.state n))) : Split.Leaving (abs env I (e.state m)) := by
  induction h with
  | refl => exact hl
  | @step m _ ih =>
    have := e.ok m
    cases hw : e.who m with
    | none => rw [hw] at this; simp only at this; rw [this]; exact ih
    | some a => rw [hw] at this; exact leaving_next hd (reach_exec e h0 m) ih this

/-- How far the control thread is from leaving its loop. -/
def leaveStage (s : Duo σ) : Nat × (A (World σ) Unit × Near σ) :=
  match s.kpc with
  | .recv => (3, .done (.ok ()), 0, .done (.ok ()), .done .hang)
  | .busy => (2, s.cprog, near s)
  | .loop => (1, .done (.ok ()), 0, .done (.ok ()), .done .hang)
  | _ => (0, .done (.ok ()), 0, .done (.ok ()), .done .hang)

theorem leave_step {a : SWho} {s s' : Duo σ} (hi : Inv s) (hf : s.flag = true) (hn : ¬ Past s) (he : s.kpc ≠ .entry) (h : Step env I a s s') :
    Past s' ∨ Prod.Lex (· < ·) Busier (leaveStage s') (leaveStage s) ∨
      (a ≠ turn s ∧ leaveStage s' = leaveStage s ∧ turn s' = turn s) := by
  by_cases hb : s.kpc = .busy
  · have e2 : leaveStage s = (2, s.cprog, near s) := by unfold leaveStage; rw [hb]
    rcases busy_next hb h with hb' | ⟨hl, hlog⟩
    · have e1 : leaveStage s' = (2, s'.cprog, near s') := by unfold leaveStage; rw [hb']
      have t1 : turn s' = helper s' := if_pos hb'
      have t2 : turn s = helper s := if_pos hb
      rcases busy_step hi hb h with h1 | h1 | ⟨h1, h2, h3⟩
      · exact absurd hb' h1
      · exact .inr (.inl (by rw [e1, e2]; exact .right _ h1))
      · exact .inr (.inr ⟨by rw [t2]; exact h1, by rw [e1, e2, h2], by rw [t1, t2, h3]⟩)
    · refine .inr (.inl ?_)
      have e1 : leaveStage s' = (1, .done (.ok ()), 0, .done (.ok ()), .done .hang) := by unfold leaveStage; rw [hl]
      rw [e1, e2]
      exact .left _ _ (by omega)
  · have ht : turn s = .control := turn_control hb
    have hpc : s.kpc = .loop ∨ s.kpc = .recv := Classical.byContradiction fun h => by
      simp only [not_or] at h
      exact hn ⟨he, h.1, h.2, hb⟩
    have stay : ∀ {s' : Duo σ}, a ≠ .control → s'.kpc = s.kpc → a ≠ turn s ∧ leaveStage s' = leaveStage s ∧ turn s' = turn s := by
      intro s' h1 h2
      refine ⟨by rw [ht]; exact h1, ?_, by rw [ht, turn_control (by rw [h2]; exact hb)]⟩
      unfold leaveStage
      rw [h2]
      rcases hpc with h | h <;> rw [h]
    cases h with
    | start _ hp => exact absurd hp he
    | test _ hp h => rw [hf] at h; cases h
    | leave _ hp hf => exact .inl ⟨by simp, by simp, by simp, by simp⟩
    | takeControl _ q r hp hq =>
      refine .inr (.inl ?_)
      unfold leaveStage; simp only [hp]
      exact .left _ _ (by omega)
    | workControl _ p w' keep hp hs _ => exact absurd hp hb
    | call _ text k hp hc hk => exact absurd hp hb
    | answer _ text k r hp hc hk hr => exact absurd hp hb
    | doneControl _ hp hd => exact absurd hp hb
    | stopSh _ hp => rw [hp] at hpc; simp at hpc
    | waitSh _ hp _ => rw [hp] at hpc; simp at hpc
    | stopPub _ hp => rw [hp] at hpc; simp at hpc
    | waitPub _ hp _ => rw [hp] at hpc; simp at hpc
    | stopHb _ hp => rw [hp] at hpc; simp at hpc
    | waitHb _ hp _ => rw [hp] at hpc; simp at hpc
    | notify _ hp => rw [hp] at hpc; simp at hpc
    | _ => exact .inr (.inr (stay (by simp) rfl))

/-- The loop of the control thread is left. -/
theorem leaves (hd : Sound env I) {st : Start σ} (e : Execution (Step env I)) (h0 : e.state 0 = init st)
    (hfc : Fair e .control) (hfs : Fair e .shell) (n : Nat) (hl : Split.Leaving (abs env I (e.state n)))
    (hw : ∀ m, n ≤ m → Well (e.state m)) (hu : ∀ m, n ≤ m → Undrained (e.state m)) : ∃ m, n ≤ m ∧ Past (e.state m) := by
  refine progress (lex_wf Nat.lt_wfRel.wf busier_wf) e
    (fun s => Reach env I st s ∧ Well s ∧ Undrained s ∧ Split.Leaving (abs env I s)) Past leaveStage turn n
    (fun m hm => ⟨reach_exec e h0 m, hw m hm, hu m hm, leaving_exec hd e h0 hm hl⟩) ?_ ?_ ?_
  · intro s _ _
    unfold turn helper
    split
    · split <;> assumption
    · assumption
  · rintro s ⟨h1, h2, h3, h4, h5, h6⟩ hg
    by_cases hb : s.kpc = .busy
    · rw [show turn s = helper s from if_pos hb]
      exact can_busy (inv_reach hd h1) h2 (fun r hr => seen_reach hd h1 h3 (.inr ⟨r, hr⟩)) hb
    · rw [turn_control hb]
      by_cases hk : s.kpc = .loop
      · exact ⟨_, .leave s hk h4⟩
      · by_cases hk' : s.kpc = .recv
        · cases hq : s.controlQ with
          | nil => exact absurd hq (h6 hk')
          | cons q r => exact ⟨_, .takeControl s q r hk' hq⟩
        · exact absurd ⟨h5, hk, hk', hb⟩ hg
  · rintro a s s' ⟨h1, h2, h3, h4, h5, h6⟩ _ hg hs
    exact leave_step (inv_reach hd h1) h4 hg h5 hs

theorem inline_done {m : A (World σ) Unit} {r : Res Unit} (h : ∀ t k, m ≠ .ask t k)
    (hm : m.inline (dispatchInternal env I) = .done r) : m = .done r := by
  cases m with
  | done r' => cases hm; rfl
  | act f k => cases hm
  | ask t k => exact absurd rfl (h t k)

/-- What a thread can do internal requests apart, it can do. -/
theorem can_of {a : SWho} {s : Duo σ} (hi : Inv s) (hw : Well s) (hc : s.calling = false) (hb : s.kpc ≠ .busy)
    (h : CanStep (Split.Step env I) a (abs env I s)) : CanStep (Step env I) a s := by
  obtain ⟨w1, w2, w3, w4⟩ := hw
  obtain ⟨t, h⟩ := h
  have hsp : (abs env I s).spc = s.spc := spcOf_idle hc
  have hctl : (abs env I s).ctl = s.cmd.isSome := by show (!s.calling && s.cmd.isSome) = _; rw [hc]; rfl
  have hack : (abs env I s).ack = s.rep.isSome := by show (!s.calling && s.rep.isSome) = _; rw [hc]; rfl
  have stop : ∀ x, s.cmd = some x → x = lit "stop" := by
    intro x hx
    cases hi.link <;> simp_all
  cases h with
  | arriveShell _ q => exact ⟨_, .arriveShell s q⟩
  | arriveControl _ q => exact ⟨_, .arriveControl s q⟩
  | arriveStdin _ q => exact ⟨_, .arriveStdin s q⟩
  | ping _ i m => exact ⟨_, .ping s i m⟩
  | publisher _ b h => exact ⟨_, .publisher s b h⟩
  | heartbeat _ b h => exact ⟨_, .heartbeat s b h⟩
  | start _ hp => exact ⟨_, .start s hp⟩
  | test _ hp h => exact ⟨_, .test s hp h⟩
  | leave _ hp h => exact ⟨_, .leave s hp h⟩
  | takeControl _ q r hp hq => exact ⟨_, .takeControl s q r hp hq⟩
  | workControl _ p w' keep hp hs hk => exact absurd hp hb
  | doneControl _ hp hd => exact absurd hp hb
  | stopSh _ hp => exact ⟨_, .stopSh s hp⟩
  | waitSh _ hp h =>
    rw [hack] at h
    exact ⟨_, .waitSh s hp (Option.isSome_iff_ne_none.1 h)⟩
  | stopPub _ hp => exact ⟨_, .stopPub s hp⟩
  | waitPub _ hp h => exact ⟨_, .waitPub s hp h⟩
  | stopHb _ hp => exact ⟨_, .stopHb s hp⟩
  | waitHb _ hp h => exact ⟨_, .waitHb s hp h⟩
  | notify _ hp => exact ⟨_, .notify s hp⟩
  | sample0 _ r hp h => exact ⟨_, .sample0 s r (hsp ▸ hp) h⟩
  | sample1 _ r0 hp h =>
    rw [hctl] at h
    exact ⟨_, .sample1 s r0 (hsp ▸ hp) (h.imp_right Option.isSome_iff_ne_none.1)⟩
  | nothing _ hp h =>
    rw [hctl] at h
    exact ⟨_, .nothing s (hsp ▸ hp) (by simpa using h)⟩
  | takeShell _ r1 q r hp h => exact ⟨_, .takeShell s r1 q r (hsp ▸ hp) h⟩
  | skip _ r1 hp => exact ⟨_, .skip s r1 (hsp ▸ hp)⟩
  | workShell _ r1 p w' keep hp hs hk =>
    by_cases hd : s.sprog = .done (.ok ())
    · exact ⟨_, .doneShell s r1 (hsp ▸ hp) hd⟩
    · obtain ⟨p', w', h⟩ := A.can_step w2 w3 hd s.w
      exact ⟨_, .workShell s r1 p' w' _ (hsp ▸ hp) h (fun _ => List.Sublist.refl _)⟩
  | doneShell _ r1 hp hd => exact ⟨_, .doneShell s r1 (hsp ▸ hp) (inline_done w3 hd)⟩
  | again _ hp => exact ⟨_, .again s (hsp ▸ hp)⟩
  | recvCtl _ hp =>
    have hp' : s.spc = .asked true := hsp ▸ hp
    obtain ⟨x, hx⟩ := Option.ne_none_iff_exists'.1 (hi.seen (.inr (.inr hp')))
    exact ⟨_, .recvStop s hp' (stop x hx ▸ hx)⟩
  | sendCtl _ hp => exact ⟨_, .sendCtl s (hsp ▸ hp) (by cases hi.link <;> simp_all)⟩

theorem terminates (hd : Sound env I) {st : Start σ} (e : Execution (Step env I)) (h0 : e.state 0 = init st)
    (hf : ∀ a, a ≠ SWho.world → Fair e a) (n : Nat) (hl : Split.Leaving (abs env I (e.state n)))
    (hw : ∀ m, n ≤ m → Well (e.state m)) (hu : ∀ m, n ≤ m → Undrained (e.state m)) :
    ∃ m, n ≤ m ∧ (e.state m).kpc = .over := by
  obtain ⟨n₁, hn, hp⟩ := leaves hd e h0 (hf _ (by simp)) (hf _ (by simp)) n hl hw hu
  obtain ⟨m, hm, h⟩ := progress later_wf e
    (fun s => Reach env I st s ∧ Split.Leaving (abs env I s) ∧ Well s ∧ Undrained s ∧ Past s) (fun s => s.kpc = .over)
    (fun s => Split.rank (abs env I s)) (fun s => Split.help (abs env I s)) n₁
    (fun m hm => ⟨reach_exec e h0 m, leaving_exec hd e h0 (Nat.le_trans hn hm) hl, hw m (Nat.le_trans hn hm), hu m (Nat.le_trans hn hm),
      past_exec e hm hp⟩) (fun s _ _ => hf _ fun h => Split.help_ne_world _ h.symm) (by
    rintro s ⟨h1, h2, h3, h4, h5⟩ hg
    have hi := inv_reach hd h1
    have hc := not_calling hi h5.2.2.2
    refine can_of hi h3 hc h5.2.2.2 (Split.can_help (abs_reach hd h1) h2 (fun q hq => h4 q (mem_evsOf.1 hq)) ?_ hg)
    intro t r hr
    cases t with
    | control =>
      rw [show (abs env I s).c.prog .control = s.todo env I from rfl, todo_idle hc, hi.idleC h5.2.2.2] at hr
      cases hr; rfl
    | shell => exact h3.2.1 r (inline_done h3.2.2.1 hr)) (by
    rintro a s s' ⟨h1, h2, h3, h4, h5⟩ _ _ hs
    have hi := inv_reach hd h1
    have hc := not_calling hi h5.2.2.2
    cases sim hi hs with
    | same h hx => rcases hx with hx | hx
                   · rw [hc] at hx; cases hx
                   · exact absurd hx h5.2.2.2
    | one h => exact Split.rank_dec (abs_reach hd h1) h2 h
    | inner h hx => rw [hc] at hx; cases hx
    | two t _ _ _ hx => rw [hc] at hx; cases hx)
  exact ⟨m, Nat.le_trans hn hm, h⟩

end Duo

end Xeus
