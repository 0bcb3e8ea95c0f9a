import Verif.KernelConc.AnswerHandlers

/-!
# Replies under parallel handling: the invariant (no property statements here)
-/

namespace Xeus

open Spec K

variable {σ : Type} {env : Env} {I : Interp σ} {H : XMessage → Req → Prop} {t : Chan}

theorem Wp.weaken {A A' : World σ → Prop} {α : Type} {tr : List Act} {Q : List Act → Except Exc α → Prop} {m : K (World σ) α}
    (h : Wp t A tr Q m) (hA : ∀ w, A' w → A w) : Wp t A' tr Q m := by
  induction m generalizing tr with
  | done r => cases r <;> exact h
  | act f k ih =>
    intro w hw
    obtain ⟨h1, h2, h3, h4⟩ := h w (hA w hw)
    exact ⟨h1, h2, fun b hb => ih _ (h3 b hb), fun e he => ih _ (h4 e he)⟩

theorem isReq_unique {m : XMessage} {r r' : Req} (h : IsReq m r) (h' : IsReq m r') : r = r' := by
  unfold IsReq at h h'
  rw [h] at h'
  have h1 := getHandler_req r
  rw [Option.some.inj h', getHandler_req] at h1
  exact (Option.some.inj h1).symm

/-- What thread `t` knows while it handles `msg`, whatever its type. -/
def Aware (env : Env) (I : Interp σ) (H : XMessage → Req → Prop) (t : Chan) (msg : XMessage) (w : World σ) : Prop :=
  w.parent t = ⟨msg.ids, msg.body.header⟩ ∧ ParentsOk w ∧ InInt w.count ∧ ∀ r, H msg r → Obliging env I msg w r

/-- All that is done for a message. -/
def Whole (env : Env) (H : XMessage → Req → Prop) (t : Chan) (msg : XMessage) (tr : List Act) : Prop :=
  (∃ evs, tr = evs.map (.did t) ∧ repliesIn evs = [] ∧ ∀ r, IsReq msg r → H msg r → ∃ e, Ev.threw e ∈ evs) ∨
  (∃ r evs rep ls post rt, IsReq msg r ∧ tr = evs.map (.did t) ++ .did t rep :: (ls ++ post.map (.did t)) ∧
    repliesIn evs = [] ∧ repliesIn post = [] ∧ replyType r = some rt ∧
    IsReply env t msg.ids msg.body.header (lit rt) rep ∧ Aborting env t ls ∧ (r ≠ .execute → ls = []))

theorem wp_handleType (hs : Sane env) {msg : XMessage} (hp : Parsed msg.body.header) (hct : Parsed msg.body.content)
    (hob : ∀ r, H msg r → ∃ w₀ : World σ, Obliging env I msg w₀ r) {ty : Str}
    (hty : msg.body.header.value (lit "msg_type") Json.getStr [] = .ok ty) {evs : List Ev} (hev : repliesIn evs = []) :
    Wp t (Aware env I H t msg) (evs.map (.did t)) (fun tr _ => Whole env H t msg tr) (handleType env I ty msg t) := by
  unfold handleType
  split
  · rename_i hn
    refine .inl ⟨evs, rfl, hev, fun r hr => ?_⟩
    unfold IsReq at hr
    rw [typeOf_value hty] at hr
    cases hr
    rw [getHandler_req] at hn
    cases hn
  · rename_i r hr
    have hreq : IsReq msg r := by
      unfold IsReq
      rw [typeOf_value hty, getHandler_some hr]
    refine Wp.weaken (A := Knows env I t msg r (H msg r)) ?_ fun w hw => ⟨hw.1, hw.2.1, hw.2.2.1, hw.2.2.2 r⟩
    refine (Ends.catchStd (ends_handle hs hp hct (hob r)) _).mono ?_
    rintro tr _ ⟨es, rfl, h⟩
    rcases h with ⟨evs', rfl, g1, g2⟩ | ⟨evs', rep, ls, rt, rfl, g1, g2, g3, g4, g5⟩
    · refine .inl ⟨evs ++ evs', by simp, by rw [repliesIn_app, hev, g1]; rfl, fun r' hr' hh => ?_⟩
      cases isReq_unique hreq hr'
      obtain ⟨e, he⟩ := g2 hh
      exact ⟨e, List.mem_append_right _ he⟩
    · exact .inr ⟨r, evs ++ evs', rep, ls, [], rt, hreq, by simp, by rw [repliesIn_app, hev, g1]; rfl, rfl, g2, g3, g4, g5⟩

theorem wp_afterParent (hs : Sane env) {msg : XMessage} (hp : Parsed msg.body.header) (hct : Parsed msg.body.content)
    (hob : ∀ r, H msg r → ∃ w₀ : World σ, Obliging env I msg w₀ r) :
    Wp t (Aware env I H t msg) [] (fun tr r => r = .ok () → Whole env H t msg tr) (afterParent env I msg t) := by
  refine Wp.bind ((mutes_publish _ _ _ _ _ []).mono ?_)
  rintro tr r ⟨evs, rfl, hev, _⟩
  cases r with
  | error e => intro h; cases h
  | ok _ =>
  simp only [List.nil_append]
  refine Wp.bind (Wp.ofRes (fun ty hty => ?_) fun _ _ h => by cases h)
  refine Wp.bind ((wp_handleType hs hp hct hob hty hev).mono ?_)
  rintro tr r hw
  cases r with
  | error e => intro h; cases h
  | ok _ =>
  refine (mutes_publish _ _ _ _ _ _).mono ?_
  rintro tr' r ⟨post, rfl, hpost, _⟩ _
  rcases hw with ⟨evs', rfl, g1, g2⟩ | ⟨r, evs', rep, ls, post', rt, g0, rfl, g1, g2, g3⟩
  · refine .inl ⟨evs' ++ post, by simp, by rw [repliesIn_app, hpost, g1]; rfl, fun r hr hh => ?_⟩
    obtain ⟨e, he⟩ := g2 r hr hh
    exact ⟨e, List.mem_append_left _ he⟩
  · exact .inr ⟨r, evs', rep, ls, post' ++ post, rt, g0, by simp, g1, by rw [repliesIn_app, hpost, g2]; rfl, g3⟩

/-! ## Where a thread is -/

/-- Where thread `t` is with message `q` after having done `tr`. -/
inductive Stage (env : Env) (I : Interp σ) (H : XMessage → Req → Prop) (t : Chan) (q : Multipart) (w : World σ) :
    List Act → K (World σ) Unit → Prop
  | refused {r : Res Unit} : (r = .ok () → Refused env.C env.J env.auth q) → Stage env I H t q w [] (.done r)
  | begun {msg : XMessage} : Accepted env.C env.J env.auth q msg →
      Stage env I H t q w [] (setParent msg.ids msg.body.header t >>= fun _ => afterParent env I msg t)
  | half {msg : XMessage} : Accepted env.C env.J env.auth q msg → (w.parent t).ids = msg.ids →
      Stage env I H t q w [] (setHeader msg.body.header t >>= fun _ => afterParent env I msg t)
  | work {msg : XMessage} {tr : List Act} {p : K (World σ) Unit} : Accepted env.C env.J env.auth q msg →
      w.parent t = ⟨msg.ids, msg.body.header⟩ →
      Wp t (Aware env I H t msg) tr (fun tr r => r = .ok () → Whole env H t msg tr) p → Stage env I H t q w tr p

theorem stage_dispatch (t : Chan) (q : Multipart) (w : World σ) : Stage env I H t q w [] (dispatch env I q t) := by
  rcases deserialize_cases env.C env.J env.auth q with ⟨m, ha, h⟩ | ⟨hr, e, h, he⟩ | ⟨hu, s, h⟩
  · have : dispatch env I q t = (K.ofRes (env.log (.received (some t) m)) >>= fun _ =>
        setParent m.ids m.body.header t >>= fun _ => afterParent env I m t) := by
      show K.bind (K.attempt (K.ofRes (deserialize env.C env.J env.auth q))) _ = _
      rw [h]; rfl
    rw [this]
    cases env.log (.received (some t) m) with
    | ok _ => exact .begun ha
    | _ => exact .refused fun h => by cases h
  · have : dispatch env I q t = .done (.ok ()) := by
      show K.bind (K.attempt (K.ofRes (deserialize env.C env.J env.auth q))) _ = _
      rw [h]
      show (if e.isStd then _ else _) = _
      rw [if_pos he]; rfl
    rw [this]
    exact .refused fun _ => hr
  · have : dispatch env I q t = .done (.ub s) := by
      show K.bind (K.attempt (K.ofRes (deserialize env.C env.J env.auth q))) _ = _
      rw [h]; rfl
    rw [this]
    exact .refused fun h => by cases h

/-- What holds of the shared state. -/
structure Sound (env : Env) (I : Interp σ) (H : XMessage → Req → Prop) (w : World σ) : Prop where
  parents : ParentsOk w
  count : InInt w.count
  good : ∀ m r, H m r → Obliging env I m w r

theorem Stage.step (hs : Sane env) {q : Multipart} {w w' : World σ} {tr : List Act} {p p' : K (World σ) Unit}
    (h : Stage env I H t q w tr p) (hw : Sound env I H w) (hst : p.step w = some (p', w')) :
    Stage env I H t q w' (tr ++ entries t w w') p' ∧ (∀ t', t' ≠ t → w'.parent t' = w.parent t') ∧ ParentsOk w' ∧
      InInt w'.count := by
  cases h with
  | refused _ => cases hst
  | begun ha =>
    rename_i msg
    simp only [K.step, setParent, Bind.bind, K.bind, K.modify, K.lift, Option.some.injEq, Prod.mk.injEq] at hst
    obtain ⟨rfl, hw'⟩ := hst
    rw [entries_silent (w' := w') t (by rw [← hw']) (by rw [← hw'])]
    subst hw'
    refine ⟨.half ha (by simp), fun t' ht => by simp [ht], fun c => ?_, hw.count⟩
    have := hw.parents c
    by_cases h : c = t
    · simp only [if_pos h]; exact this
    · simp only [if_neg h]; exact this
  | half ha hid =>
    rename_i msg
    simp only [K.step, setHeader, Bind.bind, K.bind, K.modify, K.lift, Option.some.injEq, Prod.mk.injEq] at hst
    obtain ⟨rfl, hw'⟩ := hst
    rw [entries_silent (w' := w') t (by rw [← hw']) (by rw [← hw'])]
    subst hw'
    have hp := accepted_parsed hs ha
    refine ⟨.work ha (by simp [hid]) (wp_afterParent hs hp.1 hp.2.2.2 fun r hr => ⟨w, hw.good msg r hr⟩),
      fun t' ht => by simp [ht], fun c => ?_, hw.count⟩
    by_cases h : c = t
    · simp only [if_pos h]; exact hp.1
    · simp only [if_neg h]; exact hw.parents c
  | work ha hp hwp =>
    rename_i msg
    obtain ⟨h1, h2, h3⟩ := hwp.step ⟨hp, hw.parents, hw.count, fun r hr => hw.good msg r hr⟩ hst
    exact ⟨.work ha (by rw [h1]; exact hp) h3, fun t' _ => by rw [h1], fun c => by rw [h1]; exact hw.parents c, h2 hw.count⟩

theorem Stage.other {q : Multipart} {w w' : World σ} {tr : List Act} {p : K (World σ) Unit}
    (h : Stage env I H t q w tr p) (hw : w'.parent t = w.parent t) : Stage env I H t q w' tr p := by
  cases h with
  | refused h1 => exact .refused h1
  | begun ha => exact .begun ha
  | half ha h => exact .half ha (by rw [hw]; exact h)
  | work ha h1 h2 => exact .work ha (by rw [hw]; exact h1) h2

/-! ## The invariant -/

/-- A message that has been dealt with. -/
def Settled (env : Env) (H : XMessage → Req → Prop) (t : Chan) (q : Multipart) (seg : List Act) : Prop :=
  (Refused env.C env.J env.auth q ∧ own t seg = []) ∨
  ∃ msg, Accepted env.C env.J env.auth q msg ∧ Whole env H t msg (own t seg)

structure AInv (env : Env) (I : Interp σ) (H : XMessage → Req → Prop) (s : Conc σ) : Prop where
  sound : Sound env I H s.w
  finished : ∀ a t q seg q' post, s.log = a ++ .took t q :: seg ++ .took t q' :: post → (∀ q'', Act.took t q'' ∉ seg) →
    Settled env H t q seg
  thread : ∀ t, ((∀ a ∈ s.log, a.thread ≠ t) ∧ s.prog t = .done (.ok ())) ∨
    ∃ a q seg, s.log = a ++ .took t q :: seg ∧ (∀ q', Act.took t q' ∉ seg) ∧ Stage env I H t q s.w (own t seg) (s.prog t)

theorem Stage.settled {q : Multipart} {w : World σ} {seg : List Act} (h : Stage env I H t q w (own t seg) (.done (.ok ()))) :
    Settled env H t q seg := by
  generalize htr : own t seg = tr at h
  cases h with
  | refused g => exact .inl ⟨g rfl, htr⟩
  | work ha _ hw => exact .inr ⟨_, ha, by rw [htr]; exact hw rfl⟩

/-- A step that logs nothing and touches neither programs nor parents. -/
theorem AInv.quiet {s s' : Conc σ} (h : AInv env I H s) (h1 : s'.log = s.log) (h2 : s'.prog = s.prog)
    (h3 : s'.w.parent = s.w.parent) (h4 : Sound env I H s'.w) : AInv env I H s' := by
  refine ⟨h4, by rw [h1]; exact h.finished, fun t => ?_⟩
  rw [h1, h2]
  rcases h.thread t with h' | ⟨a, q, seg, h4, h5, h6⟩
  · exact .inl h'
  · exact .inr ⟨a, q, seg, h4, h5, h6.other (by rw [h3])⟩

/-- Thread `t` takes a message. -/
theorem AInv.take {s s' : Conc σ} (h : AInv env I H s) (t : Chan) (q : Multipart) (hp : s.prog t = .done (.ok ()))
    (h1 : s'.log = s.log ++ [.took t q]) (h2 : s'.prog = setProg s t (dispatch env I q t))
    (h3 : s'.w.parent = s.w.parent) (h4 : Sound env I H s'.w) : AInv env I H s' := by
  refine ⟨h4, ?_, ?_⟩
  · intro a t' q₁ seg q₂ post heq hn
    rw [h1] at heq
    rcases snoc_split heq with ⟨rfl, hq, hl⟩ | ⟨post', _, h'⟩
    · cases hq
      rcases h.thread t with ⟨h', _⟩ | ⟨a', q', seg', h4, h5, h6⟩
      · exact absurd rfl (h' (.took t q₁) (by rw [← hl]; simp))
      · obtain ⟨rfl, rfl⟩ := last_took hl.symm hn h4 h5
        rw [hp] at h6
        exact h6.settled
    · exact h.finished _ _ _ _ _ _ h' hn
  · intro t'
    by_cases ht : t' = t
    · subst ht
      refine .inr ⟨s.log, q, [], h1, by simp, ?_⟩
      rw [h2]
      simp only [setProg, if_true]
      exact stage_dispatch _ _ _
    · rw [h1, h2]
      simp only [setProg, if_neg ht]
      rcases h.thread t' with ⟨h', h''⟩ | ⟨a', q', seg', h4, h5, h6⟩
      · refine .inl ⟨fun a ha => ?_, h''⟩
        rcases List.mem_append.1 ha with ha | ha
        · exact h' a ha
        · rw [List.mem_singleton.1 ha]; exact fun h => ht h.symm
      · have ho : own t' (seg' ++ [.took t q]) = own t' seg' := by
          rw [own_append, own_of_none (l := [Act.took t q]) (t' := t) (by intro a ha; rw [List.mem_singleton.1 ha]; rfl) (fun h => ht h.symm),
            List.append_nil]
        refine .inr ⟨a', q', seg' ++ [.took t q], by rw [h4]; simp, ?_, ?_⟩
        · intro x hx
          rcases List.mem_append.1 hx with hx | hx
          · exact h5 x hx
          · cases List.mem_singleton.1 hx; exact ht rfl
        · rw [ho]; exact h6.other (by rw [h3])

/-- A step of thread `t`. -/
theorem AInv.act (hsane : Sane env) {s : Conc σ} (h : AInv env I H s) (t : Chan) (p : K (World σ) Unit) (w' : World σ)
    (hs : (s.prog t).step s.w = some (p, w')) (hg : ∀ m r, H m r → Obliging env I m w' r) :
    AInv env I H { s with w := w', prog := setProg s t p, log := s.log ++ entries t s.w w' } := by
  rcases h.thread t with ⟨_, h'⟩ | ⟨a₀, q₀, seg₀, h4, h5, h6⟩
  · rw [h'] at hs; cases hs
  obtain ⟨hph, hpar, hpo, hcnt⟩ := h6.step hsane h.sound hs
  have hown : own t (seg₀ ++ entries t s.w w') = own t seg₀ ++ entries t s.w w' := by
    rw [own_append, own_of_all (entries_thread t s.w w')]
  have hno : ∀ x, Act.took t x ∉ seg₀ ++ entries t s.w w' := by
    intro x hx
    rcases List.mem_append.1 hx with hx | hx
    · exact h5 x hx
    · exact entries_noTook _ _ _ _ _ hx
  refine ⟨⟨hpo, hcnt, hg⟩, ?_, ?_⟩
  · intro a t' q₁ seg q₂ post heq hn
    rcases mem_append_split heq with ⟨post', h'⟩ | ⟨e₁, h1, _⟩
    · exact h.finished _ _ _ _ _ _ h' hn
    · exact absurd (by rw [h1]; simp) (entries_noTook t t' s.w w' q₂)
  · intro t'
    by_cases ht : t' = t
    · subst ht
      refine .inr ⟨a₀, q₀, seg₀ ++ entries t' s.w w', by simp [h4], hno, ?_⟩
      simp only [setProg, if_true]
      rw [hown]; exact hph
    · simp only [setProg, if_neg ht]
      rcases h.thread t' with ⟨h', h''⟩ | ⟨a', q', seg', g4, g5, g6⟩
      · refine .inl ⟨fun a ha => ?_, h''⟩
        rcases List.mem_append.1 ha with ha | ha
        · exact h' a ha
        · rw [entries_thread _ _ _ a ha]; exact fun h => ht h.symm
      · have ho : own t' (seg' ++ entries t s.w w') = own t' seg' := by
          rw [own_append, own_of_none (entries_thread t s.w w') (fun h => ht h.symm), List.append_nil]
        refine .inr ⟨a', q', seg' ++ entries t s.w w', by simp [g4], ?_, ?_⟩
        · intro x hx
          rcases List.mem_append.1 hx with hx | hx
          · exact g5 x hx
          · exact entries_noTook _ _ _ _ _ hx
        · rw [ho]; exact g6.other (hpar t' ht)

theorem ainv_run (hs : Sane env) {st : Start σ} {s : Conc σ}
    (h : CRun env I st (fun w => ∀ m r, H m r → Obliging env I m w r) s) : AInv env I H s := by
  induction h with
  | start hg =>
    refine ⟨⟨fun _ => ?_, (show InInt st.w.count by rw [st.count]; decide), hg⟩, fun _ _ _ _ _ _ h => by simp at h,
      fun _ => .inl ⟨by simp, rfl⟩⟩
    show (st.w.parent _).header.canon = true ∧ _
    rw [st.parent]
    exact ⟨show (Json.obj []).canon = true by decide, .obj (by simp) (by simp)⟩
  | step _ hst hg ih =>
    have hsd := ih.sound
    cases hst with
    | arriveShell q => exact ih.quiet rfl rfl rfl ⟨hsd.parents, hsd.count, hg⟩
    | arriveControl q => exact ih.quiet rfl rfl rfl ⟨hsd.parents, hsd.count, hg⟩
    | arriveStdin q => exact ih.quiet rfl rfl rfl ⟨hsd.parents, hsd.count, hg⟩
    | takeShell q r hp _ => exact ih.take .shell q hp rfl rfl rfl ⟨hsd.parents, hsd.count, hg⟩
    | takeControl q r hp _ => exact ih.take .control q hp rfl rfl rfl ⟨hsd.parents, hsd.count, hg⟩
    | act t p w' h => exact ih.act hs t p w' h hg

theorem run_of_reach {st : Start σ} {s : Conc σ} (h : CReach env I st s) : CRun env I st (fun _ => True) s := by
  induction h with
  | start => exact .start trivial
  | step _ hs ih => exact .step ih hs trivial

theorem CRun.mono {st : Start σ} {s : Conc σ} {G G' : World σ → Prop} (h : CRun env I st G s) (hG : ∀ w, G w → G' w) :
    CRun env I st G' s := by
  induction h with
  | start hg => exact .start (hG _ hg)
  | step _ hs hg ih => exact .step ih hs (hG _ hg)

theorem drainedBy_own (t : Chan) (l : List Act) : drainedBy t (own t l) = drainedBy t l := by
  induction l with
  | nil => rfl
  | cons a l ih =>
    cases a with
    | did t' e =>
      by_cases h : t' = t
      · subst h; simp [own, drainedBy, Act.thread] at ih ⊢; exact ih
      · simp [own, drainedBy, Act.thread, h] at ih ⊢; exact ih
    | took t' q =>
      by_cases h : t' = t
      · subst h; simp [own, drainedBy, Act.thread] at ih ⊢; exact ih
      · simp [own, drainedBy, Act.thread, h] at ih ⊢; exact ih
    | drained t' q =>
      by_cases h : t' = t
      · subst h; simp [own, drainedBy, Act.thread] at ih ⊢; exact ih
      · simp [own, drainedBy, Act.thread, h] at ih ⊢; exact ih

theorem AInv.over {s : Conc σ} (h : AInv env I H s) {q : Multipart} {seg : List Act} (ho : Over s t q seg) :
    Settled env H t q seg := by
  obtain ⟨a, b, hl, hn, ⟨q', b', rfl⟩ | ⟨rfl, hp⟩⟩ := ho
  · exact h.finished a t q seg q' b' (by rw [hl]; simp) hn
  · rw [List.append_nil] at hl
    rcases h.thread t with ⟨h', _⟩ | ⟨a', q', seg', h4, h5, h6⟩
    · exact absurd rfl (h' (.took t q) (by rw [hl]; simp))
    · obtain ⟨rfl, rfl⟩ := last_took hl hn h4 h5
      rw [hp] at h6
      exact h6.settled

theorem eventsOf_map (t : Chan) (evs : List Ev) : eventsOf t (evs.map (.did t)) = evs := by
  induction evs with
  | nil => rfl
  | cons e evs ih => simp [eventsOf, ih]

theorem drainedBy_map (t : Chan) (evs : List Ev) : drainedBy t (evs.map (.did t)) = [] := by
  induction evs with
  | nil => rfl
  | cons e evs ih => simp [drainedBy, ih]

/-- The account of a message that has been dealt with. -/
theorem Settled.replies {q : Multipart} {seg : List Act} (h : Settled env H t q seg) :
    ∃ own, Replies env t q seg own ∧ ∀ m r rt, Accepted env.C env.J env.auth q m → IsReq m r → H m r → replyType r = some rt →
      (∃ rep, own = [rep] ∧ IsReply env t m.ids m.body.header (lit rt) rep) ∨
      (own = [] ∧ ∃ e, Ev.threw e ∈ eventsOf t seg) := by
  rcases h with ⟨hr, h0⟩ | ⟨msg, ha, hw⟩
  · refine ⟨[], ⟨.inl rfl, [], [], [], ?_, ?_, .nil, by simp, by simp, fun h => absurd rfl h⟩, fun m r rt ha _ _ _ => ?_⟩
    · rw [← eventsOf_own, h0]; rfl
    · rw [← drainedBy_own, h0]; rfl
    · obtain ⟨e, he, _⟩ := refused_exc _ _ _ _ hr
      rw [accepted_ok _ _ _ _ _ ha] at he; cases he
  · have huniq : ∀ m, Accepted env.C env.J env.auth q m → m = msg := by
      intro m hm
      have h1 := accepted_ok _ _ _ _ _ hm
      rw [accepted_ok _ _ _ _ _ ha] at h1
      exact (Res.ok.inj h1).symm
    rcases hw with ⟨evs, h1, h2, h3⟩ | ⟨r, evs, rep, ls, post, rt, h0, h1, h2, h3, h4, h5, h6, h7⟩
    · refine ⟨[], ⟨.inl rfl, [], [], [], ?_, ?_, .nil, by simp, by simp, fun h => absurd rfl h⟩, fun m r rt hm hr hh _ => .inr ⟨rfl, ?_⟩⟩
      · rw [← eventsOf_own, h1, eventsOf_map, h2]; rfl
      · rw [← drainedBy_own, h1, drainedBy_map]; rfl
      · cases huniq m hm
        rw [← eventsOf_own, h1, eventsOf_map]
        exact h3 r hr hh
    · obtain ⟨done, stuck, ab, g1, g2, g3, g4, g5, g6⟩ := h6
      have hrep : repliesIn [rep] = [rep] := by obtain ⟨_, _, rfl, _⟩ := h5; rfl
      refine ⟨[rep], ⟨.inr ⟨msg, r, rt, rep, rfl, ha, h0, h4, h5⟩, done, stuck, ab, ?_, ?_, g4, g5, g6, fun hne => ⟨by simp, msg, ha, ?_⟩⟩,
        fun m r' rt' hm hr' _ hrt => .inl ⟨rep, rfl, ?_⟩⟩
      · have : eventsOf t seg = evs ++ ([rep] ++ (ab ++ post)) := by
          rw [← eventsOf_own, h1, eventsOf_append, eventsOf_map]
          simp only [eventsOf, if_true, eventsOf_append, g1, eventsOf_map, List.singleton_append]
        rw [this]
        simp only [repliesIn_app, h2, h3, g2, hrep, List.nil_append, List.append_nil]
      · rw [← drainedBy_own, h1, drainedBy_append, drainedBy_map]
        simp only [drainedBy, drainedBy_append, g3, drainedBy_map, List.nil_append, List.append_nil]
      · by_cases hx : r = .execute
        · exact hx ▸ h0
        · rw [h7 hx] at g3
          exact absurd g3.symm hne
      · cases huniq m hm
        cases isReq_unique h0 hr'
        rw [h4] at hrt; cases hrt
        exact h5

end Xeus
