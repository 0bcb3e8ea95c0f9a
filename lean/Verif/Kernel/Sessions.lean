import Verif.Kernel.ExecFinal

/-!
# Sequences of messages (no property statements here)
-/

namespace Xeus

open Spec K

variable {σ : Type}

theorem run_session_cons (env : Env) (I : Interp σ) (x : Multipart × Chan) (r : List (Multipart × Chan)) (w : World σ) :
    (session env I (x :: r)).run w =
      K.andThen ((dispatch env I x.1 x.2).run w) fun _ w' => (session env I r).run w' := by
  simp only [session, K.run_bind]

theorem dispatch_refused {env : Env} (I : Interp σ) {q : Multipart} (c : Chan) (w : World σ)
    (h : Refused env.C env.J env.auth q) : (dispatch env I q c).run w = (.ok (), w) := by
  obtain ⟨e, he, hstd⟩ := refused_exc _ _ _ _ h
  simp only [dispatch, K.run_bind, K.run_attempt, K.run_ofRes, he, K.captured_exc, K.andThen_ok, hstd, if_true,
    K.run_pure]

theorem dispatch_undefined {env : Env} (I : Interp σ) {q : Multipart} (c : Chan) (w : World σ)
    (h : Undefined env.J env.auth q) : ∃ s, (dispatch env I q c).run w = (.ub s, w) := by
  obtain ⟨s, hs⟩ := undefined_ub env.C env.J env.auth q h
  refine ⟨s, ?_⟩
  simp only [dispatch, K.run_bind, K.run_attempt, K.run_ofRes, hs, K.captured_ub, K.andThen_ub]

/-- Every multipart is refused (and ignored), undefined, or accepted. -/
theorem dispatch_trichotomy {env : Env} (I : Interp σ) (q : Multipart) (c : Chan) (w : World σ) :
    (Refused env.C env.J env.auth q ∧ (dispatch env I q c).run w = (.ok (), w)) ∨
    (Undefined env.J env.auth q ∧ ∃ s, (dispatch env I q c).run w = (.ub s, w)) ∨
    ∃ m, Accepted env.C env.J env.auth q m := by
  rcases deserialize_cases env.C env.J env.auth q with ⟨m, ha, _⟩ | ⟨hr, _⟩ | ⟨hu, _⟩
  · exact .inr (.inr ⟨m, ha⟩)
  · exact .inl ⟨hr, dispatch_refused I c w hr⟩
  · exact .inr (.inl ⟨hu, dispatch_undefined I c w hu⟩)

/-- Remembered request after an accepted message, whatever happens. -/
theorem dispatch_parent {env : Env} (hs : Sane env) (I : Interp σ) {q : Multipart} {m : XMessage} (c : Chan)
    (ha : Accepted env.C env.J env.auth q m) (w : World σ) :
    ((dispatch env I q c).run w).2.parent = curParent m c w := by
  cases ht : typeOf m.body.header with
  | none =>
    obtain ⟨w₀, hb, hrun⟩ := untyped hs I c ha w ht
    rw [hrun]; exact hb.parent
  | some t =>
    obtain ⟨b, pre, rep, ab, fin, done, stuck, _, _, _, _, _, _, _, _, _, _, hpar, _⟩ := dispatch_block hs I c ha ht w
    exact hpar

theorem parentsOk_dispatch {env : Env} (hs : Sane env) (I : Interp σ) (q : Multipart) (c : Chan) {w : World σ}
    (hp : ParentsOk w) : ParentsOk ((dispatch env I q c).run w).2 := by
  rcases dispatch_trichotomy (env := env) I q c w with ⟨_, h⟩ | ⟨_, s, h⟩ | ⟨m, ha⟩
  · rw [h]; exact hp
  · rw [h]; exact hp
  · intro c'
    rw [dispatch_parent hs I c ha]
    unfold curParent
    split
    · exact (accepted_parsed hs ha).1
    · exact hp c'

theorem shownCounts_append (l r : List Ev) : shownCounts (l ++ r) = shownCounts l ++ shownCounts r := by
  induction l with
  | nil => rfl
  | cons e l ih =>
    cases e with
    | call k =>
      cases k with
      | execute n code silent store exprs allow => cases silent <;> simp [shownCounts, ih]
      | _ => simp [shownCounts, ih]
    | _ => simp [shownCounts, ih]

theorem shownCounts_none {l : List Ev} (h : ∀ n code store exprs allow, Ev.call (.execute n code false store exprs allow) ∉ l) :
    shownCounts l = [] := by
  induction l with
  | nil => rfl
  | cons e l ih =>
    have := ih fun n code store exprs allow hk => h n code store exprs allow (List.mem_cons_of_mem _ hk)
    cases e with
    | call k =>
      cases k with
      | execute n code silent store exprs allow =>
        cases silent
        · exact absurd List.mem_cons_self (h n code store exprs allow)
        · exact this
      | _ => exact this
    | _ => exact this

theorem shownCounts_nocall {l : List Ev} (h : ∀ k, Ev.call k ∉ l) : shownCounts l = [] :=
  shownCounts_none fun _ _ _ _ _ => h _

theorem execShape_shown {env : Env} {m : XMessage} {c : Chan} {w : World σ} {f : ExecFields} {x : Res Unit × World σ}
    (h : ExecShape env m c w f x) :
    ∃ es, x.2.out = w.out ++ es ∧ shownCounts es = if f.silent then [] else [w.count + 1] := by
  obtain ⟨b, pre, outs, thr, rep, ab, fin, done, hout, hb, hann, ho, hthr, hrep, hab, hfin, _⟩ := h
  refine ⟨_, hout, ?_⟩
  have h1 : shownCounts [b] = [] := shownCounts_nocall fun k hk => by
    rw [← List.mem_singleton.mp hk] at hb; exact status_not_call hb
  have h2 : shownCounts pre = [] := shownCounts_nocall (announce_no_call hann)
  have h3 : shownCounts outs = [] := shownCounts_nocall fun k hk => output_not_call (ho _ hk)
  have h4 : shownCounts thr = [] := by rcases hthr with rfl | ⟨e, rfl, _⟩ <;> rfl
  have h5 : shownCounts rep = [] := by
    rcases hrep with ⟨rfl, _⟩ | ⟨r, _, _, rfl, ⟨_, _, rfl, _⟩, _⟩ <;> rfl
  have h6 : shownCounts ab = [] := shownCounts_nocall (abortAll_no_call hab)
  have h7 : shownCounts fin = [] := by
    rcases hfin with ⟨_, i, rfl, ⟨_, _, rfl, _⟩⟩ | ⟨_, rfl⟩ <;> rfl
  have h8 : shownCounts [.call (execCall w f)] = if f.silent then [] else [w.count + 1] := by
    unfold execCall execCount
    cases f.silent <;> rfl
  simp only [shownCounts_append, h1, h2, h3, h4, h5, h6, h7, h8, List.nil_append, List.append_nil]

/-- Effect of an accepted message on the counter, whatever the outcome. -/
theorem dispatch_count {env : Env} (hs : Sane env) (I : Interp σ) {q : Multipart} {m : XMessage} (c : Chan)
    (ha : Accepted env.C env.J env.auth q m) {w : World σ} (hp : ParentsOk w) (hc : InInt w.count)
    (hc' : Counts m → InInt (w.count + 1)) :
    (Counts m → ((dispatch env I q c).run w).2.count = w.count + 1 ∧
      ∃ es, ((dispatch env I q c).run w).2.out = w.out ++ es ∧ shownCounts es = [w.count + 1]) ∧
    (¬ Counts m → ((dispatch env I q c).run w).2.count = w.count ∧
      ∃ es, ((dispatch env I q c).run w).2.out = w.out ++ es ∧ shownCounts es = []) := by
  constructor
  · rintro hm
    obtain ⟨hr, f, hf, hsil⟩ := hm
    have hsh := exec_final hs.log (exec_course hs I c ha hr hf hp (fun _ => hc' ⟨hr, f, hf, hsil⟩) hc)
    have hshown := execShape_shown hsh
    obtain ⟨_, _, _, _, _, _, _, _, _, _, _, _, _, _, _, _, hcnt, _⟩ := hsh
    rw [hsil] at hshown
    exact ⟨by rw [hcnt]; simp [execCount, hsil], hshown⟩
  · intro hm
    by_cases hr : IsReq m .execute
    · cases hf : execFields m.body.content with
      | none =>
        by_cases hw : ExecWild m.body.content
        · obtain ⟨w₀, hb, hrun⟩ := execute_wild hs I c ha w hr hw
          obtain ⟨b, ⟨_, _, rfl, _⟩, hb2⟩ := hb.out
          rw [hrun]
          exact ⟨hb.count, _, hb2, rfl⟩
        · have hh := execute_bad hs I c ha w hr hf hw
          obtain ⟨b, i, ⟨_, _, rfl, _⟩, ⟨_, _, rfl, _⟩, ho⟩ := hh.out
          exact ⟨hh.count, _, ho, rfl⟩
      | some f =>
        have hsil : f.silent = true := by
          cases h : f.silent with
          | true => rfl
          | false => exact absurd ⟨hr, f, hf, h⟩ hm
        have hsh := exec_final hs.log (exec_course hs I c ha hr hf hp (by simp [hsil]) hc)
        have hshown := execShape_shown hsh
        obtain ⟨_, _, _, _, _, _, _, _, _, _, _, _, _, _, _, _, hcnt, _⟩ := hsh
        rw [hsil] at hshown
        exact ⟨by rw [hcnt]; simp [execCount, hsil], hshown⟩
    · cases ht : typeOf m.body.header with
      | none =>
        obtain ⟨w₀, hb, hrun⟩ := untyped hs I c ha w ht
        obtain ⟨b, ⟨_, _, rfl, _⟩, hb2⟩ := hb.out
        rw [hrun]
        exact ⟨hb.count, _, hb2, rfl⟩
      | some t =>
        obtain ⟨b, pre, rep, ab, fin, done, stuck, hb, ho, _, hpre, _, hrep, _, hab, _, _, _, hcnt, _, _, hfin⟩ :=
          dispatch_block hs I c ha ht w
        refine ⟨hcnt hr, _, ho, shownCounts_none ?_⟩
        intro n code store exprs allow hn
        simp only [List.mem_append, List.mem_singleton] at hn
        rcases hn with (hn | (hn | hn) | hn) | hn
        · rw [← hn] at hb; exact status_not_call hb
        · obtain ⟨r, hr', hin⟩ := hpre _ hn
          rcases hin with h | ⟨_, _, _, h, _⟩ | ⟨_, h, hcr⟩ | ⟨_, h⟩ | ⟨h, _⟩
          · exact output_not_call h
          · cases h
          · cases h
            simp only [callReqs, List.mem_singleton] at hcr
            subst hcr
            exact hr hr'
          · cases h
          · cases h
        · obtain ⟨_, _, _, _, h⟩ := hrep _ hn
          exact reply_not_call h
        · exact abortAll_no_call hab _ hn
        · rcases hfin with ⟨_, ⟨i, rfl, hi⟩, _⟩ | ⟨rfl, _⟩
          · rw [← List.mem_singleton.mp hn] at hi; exact status_not_call hi
          · simp at hn

/-- An invariant of single dispatches that return holds after a sequence of messages. -/
theorem session_invariant {env : Env} {I : Interp σ} {P : World σ → Prop}
    (hstep : ∀ q c w, P w → P ((dispatch env I q c).run w).2) :
    ∀ (xs : List (Multipart × Chan)) (w : World σ), P w → P ((session env I xs).run w).2
  | [], w, h => by simpa [session] using h
  | x :: r, w, h => by
    rw [run_session_cons]
    have h1 := hstep x.1 x.2 w h
    rcases hrun : (dispatch env I x.1 x.2).run w with ⟨y, w'⟩
    rw [hrun] at h1
    cases y with
    | ok _ => rw [K.andThen_ok]; exact session_invariant hstep r w' h1
    | exc e => rw [K.andThen_exc]; exact h1
    | ub s => rw [K.andThen_ub]; exact h1
    | hang => rw [K.andThen_hang]; exact h1

theorem initial_parents (s : σ) (q₁ q₂ : List Multipart) : ParentsOk (World.initial s q₁ q₂) :=
  fun _ => ⟨by show Json.canon (.obj []) = true; decide, .obj (by simp) (by simp)⟩

/-- The start message of a kernel in state `w`. -/
def startMessage (env : Env) (w : World σ) : PubMessage :=
  ⟨lit "kernel_core." ++ env.kernelId ++ lit ".status",
    ⟨headerOf (newXguid (env.guid w.guids)) env.user env.session (env.now w.clocks) (lit "status"), .obj [], .obj [],
      .obj [(lit "execution_state", .str (lit "starting"))], []⟩⟩

theorem run_start (env : Env) (w : World σ) : (start env).run w =
    K.andThen (serializePub env.C env.J env.auth env.eh (startMessage env w), tick w) fun wire w' =>
      (.ok (), { w' with out := w'.out ++ [.pub .shell (startMessage env w) wire] }) := by
  simp only [start, K.run_bind, run_makeHeader, K.andThen_ok, K.run_ofRes, run_emit]
  rfl

end Xeus
