import Verif.Server.Atomic
import Verif.Server.Service
import Verif.Kernel.Props
import Verif.Kernel.Sessions

/-!
# The default server: replies (no property statements here)
-/

namespace Xeus

open Spec K

variable {σ : Type} {env : Env} {I : Interp σ}

theorem accepted_unique {q : Multipart} {m m' : XMessage} (h : Accepted env.C env.J env.auth q m)
    (h' : Accepted env.C env.J env.auth q m') : m = m' := by
  have h1 := accepted_ok env.C env.J env.auth q m h
  rw [accepted_ok env.C env.J env.auth q m' h'] at h1
  injection h1 with h1
  exact h1.symm

theorem accepted_not_refused {q : Multipart} {m : XMessage} (h : Accepted env.C env.J env.auth q m) :
    ¬ Refused env.C env.J env.auth q := by
  intro hr
  obtain ⟨e, h1, _⟩ := refused_exc env.C env.J env.auth q hr
  rw [accepted_ok env.C env.J env.auth q m h] at h1
  cases h1

/-- The replies sent by a handler that ends well. -/
theorem dispatch_replies (hs : Sane env) (I : Interp σ) (q : Multipart) (c : Chan) {w w' : World σ}
    (hrun : (dispatch env I q c).run w = (.ok (), w')) :
    ∃ es own ab done stuck, w'.out = w.out ++ es ∧ repliesIn es = own ++ ab ∧ OwnReply env c q own ∧
      w.shellQ = done ++ stuck ++ w'.shellQ ∧ AbortAll env done ab ∧ stuck.length ≤ 1 ∧ ∀ x ∈ stuck, ¬ Abortable env x := by
  rcases dispatch_trichotomy (env := env) I q c w with ⟨_, hd⟩ | ⟨_, s, hd⟩ | ⟨m, ha⟩
  · rw [hd] at hrun
    simp only [Prod.mk.injEq, true_and] at hrun
    subst hrun
    exact ⟨[], [], [], [], [], by simp, rfl, .inl rfl, by simp, .nil, by simp, by simp⟩
  · rw [hd] at hrun; cases hrun
  · cases ht : typeOf m.body.header with
    | none =>
      obtain ⟨w₀, _, hr⟩ := untyped hs I c ha w ht
      rw [hr] at hrun; cases hrun
    | some t =>
      obtain ⟨b, pre, rep, ab, fin, done, stuck, hb, hout, _, hpre, hlen, hrep, hsq, hab, ⟨hst, hna⟩, hne, _, _, _, _, hfin⟩ :=
        dispatch_block hs I c ha ht w
      rw [hrun] at hout hsq hfin
      refine ⟨_, rep, ab, done, stuck, hout, ?_, ?_, hsq, hab, hst, hna⟩
      · have h1 : repliesIn pre = [] := repliesIn_none fun e he => by
          obtain ⟨r, _, h⟩ := hpre e he
          exact inner_not_reply h
        have h2 : repliesIn rep = rep := repliesIn_all fun e he => by
          obtain ⟨_, _, _, _, h⟩ := hrep e he
          exact isReply_any h
        have h3 : repliesIn [b] = [] := repliesIn_none (by simpa using isStatus_not_reply hb)
        have h4 : repliesIn fin = [] := by
          rcases hfin with ⟨_, ⟨i, rfl, hi⟩, _⟩ | ⟨rfl, _⟩
          · exact repliesIn_none (by simpa using isStatus_not_reply hi)
          · rfl
        simp only [repliesIn_append, h1, h2, h3, h4, repliesIn_all (abortAll_reply hab), List.nil_append, List.append_nil]
      · cases rep with
        | nil => exact .inl rfl
        | cons e l =>
          cases l with
          | cons _ _ => simp at hlen
          | nil =>
            obtain ⟨r, rt, h1, h2, h3⟩ := hrep e List.mem_cons_self
            exact .inr ⟨m, r, rt, e, rfl, ha, h1, h2, h3⟩

theorem abortAll_mem {qs : List Multipart} {ab : List Ev} (h : AbortAll env qs ab) {q : Multipart} (hq : q ∈ qs)
    {m : XMessage} (ha : Accepted env.C env.J env.auth q m) : ∃ rep ∈ ab, IsAbortReply env m rep := by
  induction h with
  | nil => cases hq
  | dropped hr _ ih =>
    rcases List.mem_cons.1 hq with rfl | hq
    · exact absurd hr (accepted_not_refused ha)
    · exact ih hq
  | answered ha' hab _ ih =>
    rcases List.mem_cons.1 hq with rfl | hq
    · rw [accepted_unique ha ha']; exact ⟨_, by simp, hab⟩
    · obtain ⟨rep, h1, h2⟩ := ih hq
      exact ⟨rep, by simp [h1], h2⟩

theorem serial_parents (hs : Sane env) {st : Start σ} {l : List (Chan × Multipart)} {as : List Multipart} {w : World σ}
    (h : Serial env I st l as w) : ParentsOk w := by
  induction h with
  | start =>
    intro c
    rw [st.parent]
    exact initial_parents () [] [] c
  | arrive A B _ ih => exact ih
  | @shell _ _ w w' q r _ _ _ hrun ih =>
    have := parentsOk_dispatch hs I q .shell (w := { w with shellQ := r }) ih
    rw [hrun] at this
    exact this
  | @control _ _ w w' q _ _ hrun ih =>
    have := parentsOk_dispatch hs I q .control ih
    rw [hrun] at this
    exact this

theorem serial_account (hs : Sane env) {st : Start σ} {l : List (Chan × Multipart)} {as : List Multipart} {w : World σ}
    (h : Serial env I st l as w) : ∃ tk, tk ++ w.shellQ = as ∧ Account env l tk (repliesIn w.out) := by
  induction h with
  | start => exact ⟨[], st.shellQ, by rw [st.out]; exact .nil⟩
  | arrive A B _ ih =>
    obtain ⟨tk, h1, h2⟩ := ih
    exact ⟨tk, by rw [← h1]; simp, h2⟩
  | @shell _ _ w w' q r _ _ hq hrun ih =>
    obtain ⟨tk, h1, h2⟩ := ih
    obtain ⟨es, own, ab, done, stuck, a1, a2, a3, a4, a5, a6, a7⟩ := dispatch_replies hs I q .shell hrun
    refine ⟨_, ?_, by rw [a1, repliesIn_append, a2]; exact .handled .shell q own done stuck ab h2 a3 a5 a6 a7⟩
    simp only at a4
    rw [← h1, hq, a4]
    simp
  | @control _ _ w w' q _ _ hrun ih =>
    obtain ⟨tk, h1, h2⟩ := ih
    obtain ⟨es, own, ab, done, stuck, a1, a2, a3, a4, a5, a6, a7⟩ := dispatch_replies hs I q .control hrun
    refine ⟨_, ?_, by rw [a1, repliesIn_append, a2]; exact .handled .control q own done stuck ab h2 a3 a5 a6 a7⟩
    rw [← h1, a4]
    simp

theorem tally_snoc {xs : List (Multipart × Chan)} {q : Multipart} {c : Chan} {n : Nat} (h : Tally env (xs ++ [(q, c)]) n) :
    ∃ n', Tally env xs n' ∧ ((n = n' + 1 ∧ ∃ m, Accepted env.C env.J env.auth q m ∧ Counts m) ∨
      (n = n' ∧ ∀ m, Accepted env.C env.J env.auth q m → ¬ Counts m)) := by
  induction xs generalizing n with
  | nil =>
    cases h with
    | counted h1 h2 h3 => cases h3; exact ⟨0, .nil, .inl ⟨rfl, _, h1, h2⟩⟩
    | other h1 h3 => cases h3; exact ⟨0, .nil, .inr ⟨rfl, h1⟩⟩
  | cons x xs ih =>
    cases h with
    | counted h1 h2 h3 =>
      obtain ⟨n', h4, h5⟩ := ih h3
      refine ⟨n' + 1, .counted h1 h2 h4, ?_⟩
      rcases h5 with ⟨rfl, h5⟩ | ⟨rfl, h5⟩
      · exact .inl ⟨rfl, h5⟩
      · exact .inr ⟨rfl, h5⟩
    | other h1 h3 =>
      obtain ⟨n', h4, h5⟩ := ih h3
      exact ⟨n', .other h1 h4, h5⟩

/-- One message more. -/
theorem count_snoc (hs : Sane env) {xs : List (Multipart × Chan)} {q : Multipart} {c : Chan} {n : Nat} {w w' : World σ}
    (hp : ParentsOk w) (ht : Tally env (xs ++ [(q, c)]) n) (hrun : (dispatch env I q c).run w = (.ok (), w'))
    (ih : ∀ n, Tally env xs n → InInt n ∧ w.count = n ∧ shownCounts w.out = (List.range n).map fun i : Nat => 1 + (i : Int)) :
    InInt n ∧ w'.count = n ∧ shownCounts w'.out = (List.range n).map fun i : Nat => 1 + (i : Int) := by
  obtain ⟨n', h1, h2⟩ := tally_snoc ht
  obtain ⟨hi, hc, hsh⟩ := ih n' h1
  rcases h2 with ⟨rfl, m, ha, hm⟩ | ⟨rfl, hno⟩
  · have hov : InInt (w.count + 1) := by
      by_cases h : InInt (w.count + 1)
      · exact h
      · obtain ⟨hr, f, hf, hsil⟩ := hm
        obtain ⟨s, hub⟩ := exec_overflow hs I c ha hr hf hsil h
        rw [hrun] at hub
        cases hub
    obtain ⟨h1, es, h2, h3⟩ := (dispatch_count hs I c ha hp (by rw [hc]; exact hi) fun _ => hov).1 hm
    rw [hrun] at h1 h2
    rw [hc] at h1 h3 hov
    refine ⟨by simpa using hov, by simpa using h1, ?_⟩
    simp only at h2
    rw [h2, shownCounts_append, h3, hsh, List.range_succ, List.map_append]
    simp
    omega
  · rcases dispatch_trichotomy (env := env) I q c w with ⟨_, hd⟩ | ⟨_, s, hd⟩ | ⟨m, ha⟩
    · rw [hd] at hrun
      simp only [Prod.mk.injEq, true_and] at hrun
      subst hrun
      exact ⟨hi, hc, hsh⟩
    · rw [hd] at hrun; cases hrun
    · obtain ⟨h1, es, h2, h3⟩ := (dispatch_count hs I c ha hp (by rw [hc]; exact hi) fun h => absurd h (hno m ha)).2 (hno m ha)
      rw [hrun] at h1 h2
      simp only at h1 h2
      exact ⟨hi, by rw [h1, hc], by rw [h2, shownCounts_append, h3, hsh, List.append_nil]⟩

theorem serial_count (hs : Sane env) {st : Start σ} {l : List (Chan × Multipart)} {as : List Multipart} {w : World σ}
    (h : Serial env I st l as w) : ∀ n, Tally env (l.map fun x => (x.2, x.1)) n →
      InInt n ∧ w.count = n ∧ shownCounts w.out = (List.range n).map fun i : Nat => 1 + (i : Int) := by
  induction h with
  | start =>
    intro n hn
    cases hn
    exact ⟨by decide, st.count, by rw [st.out]; rfl⟩
  | arrive A B _ ih => exact ih
  | @shell _ _ w w' q r hb _ _ hrun ih =>
    intro n hn
    rw [List.map_append] at hn
    exact count_snoc hs (w := { w with shellQ := r }) (show ParentsOk w from serial_parents hs hb) hn hrun ih
  | @control _ _ w w' q hb _ hrun ih =>
    intro n hn
    rw [List.map_append] at hn
    exact count_snoc hs (serial_parents hs hb) hn hrun ih

/-- Message number `k` received from the shell socket, in the log. -/
theorem takenFrom_split {log : List SEv} {k : Nat} {q : Multipart} (h : (takenFrom .shell log)[k]? = some q) :
    ∃ l₀ l, (takenFrom .shell l₀).length = k ∧
      (log = l₀ ++ .act (.took .shell q) :: l ∨ ∃ c, log = l₀ ++ .act (.drained c q) :: l) := by
  induction log generalizing k with
  | nil => simp [takenFrom] at h
  | cons x log ih =>
    have skip : takenFrom .shell [x] = [] → (takenFrom .shell log)[k]? = some q → ∃ l₀ l, (takenFrom .shell l₀).length = k ∧
        (x :: log = l₀ ++ .act (.took .shell q) :: l ∨ ∃ c, x :: log = l₀ ++ .act (.drained c q) :: l) := by
      intro hx h
      obtain ⟨l₀, l, h1, h2⟩ := ih h
      refine ⟨x :: l₀, l, ?_, ?_⟩
      · rw [show x :: l₀ = [x] ++ l₀ from rfl, takenFrom_append, hx]; simpa using h1
      · rcases h2 with rfl | ⟨c, rfl⟩
        · exact .inl rfl
        · exact .inr ⟨c, rfl⟩
    have one : ∀ q', takenFrom .shell [x] = [q'] →
        (x = .act (.took .shell q') ∨ ∃ c, x = .act (.drained c q')) → ∃ l₀ l, (takenFrom .shell l₀).length = k ∧
        (x :: log = l₀ ++ .act (.took .shell q) :: l ∨ ∃ c, x :: log = l₀ ++ .act (.drained c q) :: l) := by
      intro q' hx hx'
      rw [show x :: log = [x] ++ log from rfl, takenFrom_append, hx] at h
      cases k with
      | zero =>
        simp at h
        subst h
        refine ⟨[], log, rfl, ?_⟩
        rcases hx' with rfl | ⟨c, rfl⟩
        · exact .inl rfl
        · exact .inr ⟨c, rfl⟩
      | succ k =>
        simp only [List.cons_append, List.nil_append, List.getElem?_cons_succ] at h
        obtain ⟨l₀, l, h1, h2⟩ := ih h
        refine ⟨x :: l₀, l, ?_, ?_⟩
        · rw [show x :: l₀ = [x] ++ l₀ from rfl, takenFrom_append, hx]; simp [h1]
        · rcases h2 with rfl | ⟨c, rfl⟩
          · exact .inl rfl
          · exact .inr ⟨c, rfl⟩
    cases x with
    | act y =>
      cases y with
      | took c q' =>
        cases c with
        | shell => exact one q' rfl (.inl rfl)
        | control => exact skip rfl h
      | drained c q' => exact one q' rfl (.inr ⟨c, rfl⟩)
      | did c e => exact skip rfl h
    | _ => exact skip rfl h

theorem takenFrom_split_control {log : List SEv} {k : Nat} {q : Multipart} (h : (takenFrom .control log)[k]? = some q) :
    ∃ l₀ l, (takenFrom .control l₀).length = k ∧ log = l₀ ++ .act (.took .control q) :: l := by
  induction log generalizing k with
  | nil => simp [takenFrom] at h
  | cons x log ih =>
    have skip : takenFrom .control [x] = [] → (takenFrom .control log)[k]? = some q → ∃ l₀ l,
        (takenFrom .control l₀).length = k ∧ x :: log = l₀ ++ .act (.took .control q) :: l := by
      intro hx h
      obtain ⟨l₀, l, h1, rfl⟩ := ih h
      refine ⟨x :: l₀, l, ?_, rfl⟩
      rw [show x :: l₀ = [x] ++ l₀ from rfl, takenFrom_append, hx]; simpa using h1
    cases x with
    | act y =>
      cases y with
      | took c q' =>
        cases c with
        | shell => exact skip rfl h
        | control =>
          cases k with
          | zero =>
            simp [takenFrom] at h
            subst h
            exact ⟨[], log, rfl, rfl⟩
          | succ k =>
            simp only [takenFrom, if_true, List.getElem?_cons_succ] at h
            obtain ⟨l₀, l, h1, rfl⟩ := ih h
            exact ⟨_ :: l₀, l, by simp [takenFrom, h1], rfl⟩
      | drained c q' => exact skip rfl h
      | did c e => exact skip rfl h
    | _ => exact skip rfl h

namespace Main

theorem stopAsked_exec {st : Start σ} (e : Execution (Step env I)) (h0 : e.state 0 = init st) {i j : Nat} (h : i ≤ j)
    (hi : stopAsked (e.state i).c.w) : stopAsked (e.state j).c.w := by
  unfold stopAsked at hi ⊢
  rw [← events_reach (reach_exec e h0 i)] at hi
  rw [← events_reach (reach_exec e h0 j)]
  obtain ⟨x, hx⟩ := log_exec e h
  rw [← hx, eventsIn_append]
  exact List.mem_append_left _ hi

theorem idle_step {a : Who} {s s' : Main σ} (hi : ¬ Spec.Idle s) (h : Step env I a s s') :
    Spec.Idle s' ∨ Next (if s'.pc = .shell then s'.c.prog .shell else s'.c.prog .control)
        (if s.pc = .shell then s.c.prog .shell else s.c.prog .control) ∨
      (a ≠ .main ∧ (if s'.pc = .shell then s'.c.prog .shell else s'.c.prog .control) =
        if s.pc = .shell then s.c.prog .shell else s.c.prog .control) := by
  have no : ∀ {p}, s.pc = p → (∀ rs, p ≠ .control rs) → p ≠ .shell → False := by
    intro p hp h1 h2
    exact hi ⟨by rw [hp]; exact h1, by rw [hp]; exact h2⟩
  cases h with
  | arriveShell _ q => exact .inr (.inr ⟨by simp, rfl⟩)
  | arriveControl _ q => exact .inr (.inr ⟨by simp, rfl⟩)
  | arriveStdin _ q => exact .inr (.inr ⟨by simp, rfl⟩)
  | ping _ i m => exact .inr (.inr ⟨by simp, rfl⟩)
  | publisher _ a _ => exact .inr (.inr ⟨by simp, rfl⟩)
  | heartbeat _ a _ => exact .inr (.inr ⟨by simp, rfl⟩)
  | workControl _ rs p w' keep hp hs _ =>
    refine .inr (.inl ?_)
    simp only [Main.work, hp, setProg, reduceCtorEq, if_false, if_true]
    exact ⟨_, _, hs⟩
  | workShell _ p w' keep hp hs _ =>
    refine .inr (.inl ?_)
    simp only [Main.work, hp, setProg, if_true]
    exact ⟨_, _, hs⟩
  | doneControl _ rs hp hd => exact .inl (by simp [Idle])
  | doneShell _ hp hd => exact .inl (by simp [Idle])
  | enter _ hp _ => exact absurd trivial fun _ => no hp (by simp) (by simp)
  | sampleControl _ rc hp _ => exact (no hp (by simp) (by simp)).elim
  | sampleShell _ rc rs hp _ _ => exact (no hp (by simp) (by simp)).elim
  | nothing _ hp _ => exact (no hp (by simp) (by simp)).elim
  | takeControl _ rs q r hp hq => exact (no hp (by simp) (by simp)).elim
  | noControl _ rs hp => exact (no hp (by simp) (by simp)).elim
  | shellNext _ hp _ => exact (no hp (by simp) (by simp)).elim
  | noShell _ rs hp _ => exact (no hp (by simp) (by simp)).elim
  | takeShell _ q r hp hq => exact (no hp (by simp) (by simp)).elim
  | leave _ hp _ => exact (no hp (by simp) (by simp)).elim
  | stopPub _ hp => exact (no hp (by simp) (by simp)).elim
  | waitPub _ hp _ => exact (no hp (by simp) (by simp)).elim
  | stopHb _ hp => exact (no hp (by simp) (by simp)).elim
  | waitHb _ hp _ => exact (no hp (by simp) (by simp)).elim

/-- Every handler ends. -/
theorem idle_again (e : Execution (Step env I)) (hf : Fair e .main) (n : Nat) (hh : ∀ m, n ≤ m → Healthy (e.state m)) :
    ∃ m, n ≤ m ∧ Spec.Idle (e.state m) := by
  refine progress next_wf e Healthy Idle
    (fun s => if s.pc = .shell then s.c.prog .shell else s.c.prog .control) (fun _ => .main) n hh (fun _ _ _ => hf) ?_ ?_
  · intro s h hi
    cases hpc : s.pc with
    | control rs =>
      by_cases hd : s.c.prog .control = .done (.ok ())
      · exact ⟨_, .doneControl s rs hpc hd⟩
      · obtain ⟨p', w', h⟩ := K.can_step (h .control) hd s.c.w
        exact ⟨_, .workControl s rs p' w' _ hpc h (List.Sublist.refl _)⟩
    | shell =>
      by_cases hd : s.c.prog .shell = .done (.ok ())
      · exact ⟨_, .doneShell s hpc hd⟩
      · obtain ⟨p', w', h⟩ := K.can_step (h .shell) hd s.c.w
        exact ⟨_, .workShell s p' w' _ hpc h (List.Sublist.refl _)⟩
    | _ => exact absurd (by simp [Idle, hpc]) hi
  · intro a s s' _ _ hi hs
    rcases idle_step hi hs with h | h | h
    · exact .inl h
    · exact .inr (.inl h)
    · exact .inr (.inr ⟨h.1, h.2, rfl⟩)

/-- The message before which a message was taken from the queue. -/
theorem drained_in {st : Start σ} {s : Main σ} (h : Reach env I st s) (hi : Spec.Idle s) {l₀ l : List SEv} {c : Chan} {q : Multipart}
    (heq : s.log = l₀ ++ .act (.drained c q) :: l) :
    ∃ m₀ c' q' a b l₂ w', l₀ = m₀ ++ .act (.took c' q') :: a ∧ l = b ++ l₂ ∧ handledIn (a ++ b) = [] ∧
      HandledAlone env I st m₀ c' q' (a ++ .act (.drained c q) :: b) (.ok ()) w' := by
  obtain ⟨m₀, c', q', a, rfl, ha⟩ := handledIn_split (drained_reach h _ _ _ _ heq)
  obtain ⟨l₁, l₂, w', h1, h2, h3, h4⟩ := past_reach h m₀ c' q' (a ++ .act (.drained c q) :: l) (by rw [heq]; simp) (.inl hi)
  have : ∃ b, l₁ = a ++ .act (.drained c q) :: b ∧ l = b ++ l₂ := by
    rcases List.append_eq_append_iff.1 h1 with ⟨x, h5, h6⟩ | ⟨x, h5, h6⟩
    · cases x with
      | nil =>
        rcases h3 with rfl | ⟨_, _, _, rfl⟩ <;> simp at h6
      | cons y x =>
        simp only [List.cons_append, List.cons.injEq] at h6
        exact ⟨x, by rw [h5, h6.1], h6.2⟩
    · rcases h3 with rfl | ⟨c₂, q₂, l₃, rfl⟩
      · simp at h6
      · cases x with
        | nil => simp at h6
        | cons y x =>
          simp only [List.cons_append, List.cons.injEq] at h6
          rw [h5, ← h6.1, handledIn_append] at ha
          simp [handledIn] at ha
  obtain ⟨b, rfl, rfl⟩ := this
  refine ⟨m₀, c', q', a, b, l₂, w', rfl, rfl, ?_, h4⟩
  rw [handledIn_append] at h2 ⊢
  exact h2

/-- A message received was answered. -/
theorem handled_answered (hs : Sane env) {st : Start σ} {s : Main σ} (h : Reach env I st s) (hi : Spec.Idle s) {c : Chan} {k : Nat}
    {q : Multipart} {l₀ l : List SEv} (heq : s.log = l₀ ++ .act (.took c q) :: l) (hk : (takenFrom c l₀).length = k)
    {m : XMessage} (ha : Accepted env.C env.J env.auth q m) {r : Req} (hr : IsReq m r)
    (hserved : ∀ l as w rest, l <+: handledIn s.log → Serial env I st l as w → ¬ stopAsked w →
      w.shellQ = (if c = .shell then q :: rest else rest) → Spec.Served env I m c { w with shellQ := rest } r) :
    Answered env s.log c k q m r := by
  obtain ⟨l₁, l₂, w', rfl, h2, _, as, w, rest, a1, _, a2, a3, a4, a5, a6, a7⟩ := past_reach h _ _ _ _ heq (.inl hi)
  obtain ⟨rt, es, rep, ab, done, rest', b1, b2, b3, b4, b5, b6, b7, b8⟩ :=
    C14_exactly_one env hs I q m c r ha hr { w with shellQ := rest } (show ParentsOk w from serial_parents hs a1)
      (hserved _ as w rest ⟨_, by rw [heq, handledIn_append]⟩ a1 a2 a4)
  rw [a5] at b3
  simp only at b3
  rw [a6, a3, eventsIn_append] at b3
  rw [← List.append_cancel_left b3] at b4
  exact ⟨l₀, l₁, l₂, rt, rep, ab, heq, hk, h2, b1, b5, b4, b8⟩

/-- A message received was answered or aborted. -/
theorem answered_reach (hs : Sane env) {st : Start σ} {s : Main σ} (h : Reach env I st s) (hi : Spec.Idle s) {k : Nat} {q : Multipart}
    (hq : (takenFrom .shell s.log)[k]? = some q) {m : XMessage} (ha : Accepted env.C env.J env.auth q m) {r : Req}
    (hr : IsReq m r)
    (hserved : ∀ l as w rest, l <+: handledIn s.log → Serial env I st l as w → ¬ stopAsked w →
      w.shellQ = (if Chan.shell = .shell then q :: rest else rest) → Spec.Served env I m .shell { w with shellQ := rest } r) :
    Answered env s.log .shell k q m r ∨ AbortedIn env s.log k q m := by
  obtain ⟨l₀, l, hk, heq | ⟨c, heq⟩⟩ := takenFrom_split hq
  · exact .inl (handled_answered hs h hi heq hk ha hr hserved)
  · refine .inr ?_
    obtain ⟨m₀, c', q', a, b, l₂, w', rfl, rfl, h3, as, w, rest, a1, _, a2, a3, a4, a5, a6, a7⟩ := drained_in h hi heq
    refine ⟨m₀, c', q', c, a, b, l₂, by rw [heq]; simp, hk, h3, fun hab => ?_⟩
    obtain ⟨es, own, ab, done, stuck, b1, b2, b3, b4, b5, b6, b7⟩ := dispatch_replies hs I q' c' a5
    simp only at b1 b4
    rw [a7] at b4
    have hds := List.append_cancel_right b4
    have hmem : q ∈ done ++ stuck := by
      rw [← hds, takenFrom_append]
      simp [takenFrom]
    rcases List.mem_append.1 hmem with hmem | hmem
    · obtain ⟨rep, h5, h6⟩ := abortAll_mem b5 hmem ha
      refine ⟨rep, ?_, h6⟩
      rw [a6, a3, eventsIn_append] at b1
      have h7 : rep ∈ repliesIn es := by rw [b2]; simp [h5]
      rw [← List.append_cancel_left b1, eventsIn_append] at h7
      rw [eventsIn_append]
      exact (mem_repliesIn.1 h7).1
    · exact absurd hab (b7 q hmem)

end Main

end Xeus
