import Verif.KernelConc.Handlers

/-!
# Interleavings: the invariant (no property statements here)
-/

namespace Xeus

open Spec K

variable {σ : Type} {env : Env} {I : Interp σ}

theorem Safe.step {t : Chan} {p : Parent} {V : List Act → Prop} {α : Type} {tr : List Act}
    {Q : List Act → Except Exc α → Prop} {m m' : K (World σ) α} {w w' : World σ} (h : Safe t p V tr Q m)
    (hw : w.parent t = p) (hs : m.step w = some (m', w')) :
    Kept w w' ∧ V (tr ++ entries t w w') ∧ Safe t p V (tr ++ entries t w w') Q m' := by
  cases m with
  | done r => cases hs
  | act f k =>
    obtain ⟨h1, h2, h3, h4⟩ := h w hw
    simp only [K.step, Option.some.injEq] at hs
    rcases hf : f w with ⟨r, w₁⟩
    rw [hf] at hs h1 h2 h3 h4
    cases r with
    | ok b => simp only [Prod.mk.injEq] at hs; obtain ⟨rfl, rfl⟩ := hs; exact ⟨h1, h2, h3 b rfl⟩
    | exc e => simp only [Prod.mk.injEq] at hs; obtain ⟨rfl, rfl⟩ := hs; exact ⟨h1, h2, h4 e rfl⟩
    | ub _ => simp only [Prod.mk.injEq] at hs; obtain ⟨rfl, rfl⟩ := hs; exact ⟨h1, h2, trivial⟩
    | hang => simp only [Prod.mk.injEq] at hs; obtain ⟨rfl, rfl⟩ := hs; exact ⟨h1, h2, trivial⟩

/-- The entries of one thread. -/
def own (t : Chan) (l : List Act) : List Act := l.filter fun a => a.thread = t

theorem own_append (t : Chan) (a b : List Act) : own t (a ++ b) = own t a ++ own t b := List.filter_append ..

theorem eventsOf_own (t : Chan) (l : List Act) : eventsOf t (own t l) = eventsOf t l := by
  induction l with
  | nil => rfl
  | cons a l ih =>
    cases a with
    | did t' e =>
      by_cases h : t' = t
      · subst h; simp [own, eventsOf, Act.thread] at ih ⊢; exact ih
      · simp [own, eventsOf, Act.thread, h] at ih ⊢; exact ih
    | took t' q =>
      by_cases h : t' = t
      · subst h; simp [own, eventsOf, Act.thread] at ih ⊢; exact ih
      · simp [own, eventsOf, Act.thread, h] at ih ⊢; exact ih
    | drained t' q =>
      by_cases h : t' = t
      · subst h; simp [own, eventsOf, Act.thread] at ih ⊢; exact ih
      · simp [own, eventsOf, Act.thread, h] at ih ⊢; exact ih

theorem abortedBy_own (t : Chan) (l : List Act) : abortedBy t (own t l) = abortedBy t l := by
  induction l with
  | nil => rfl
  | cons a l ih =>
    cases a with
    | did t' e =>
      by_cases h : t' = t
      · subst h; simp [own, abortedBy, Act.thread] at ih ⊢; exact ih
      · simp [own, abortedBy, Act.thread, h] at ih ⊢; exact ih
    | took t' q =>
      by_cases h : t' = t
      · subst h; simp [own, abortedBy, Act.thread] at ih ⊢; exact ih
      · simp [own, abortedBy, Act.thread, h] at ih ⊢; exact ih
    | drained t' q =>
      by_cases h : t' = t
      · subst h; simp [own, abortedBy, Act.thread] at ih ⊢; exact ih
      · simp [own, abortedBy, Act.thread, h] at ih ⊢; exact ih

theorem own_of_all {t : Chan} {l : List Act} (h : ∀ a ∈ l, a.thread = t) : own t l = l := by
  simp only [own, List.filter_eq_self, decide_eq_true_eq]; exact h

theorem own_of_none {t t' : Chan} {l : List Act} (h : ∀ a ∈ l, a.thread = t') (ht : t' ≠ t) : own t l = [] := by
  simp only [own, List.filter_eq_nil_iff, decide_eq_true_eq]
  exact fun a ha h' => ht ((h a ha).symm.trans h')

theorem entries_thread (t : Chan) (w w' : World σ) : ∀ a ∈ entries t w w', a.thread = t := by
  intro a ha
  rcases List.mem_append.1 ha with ha | ha <;> obtain ⟨_, _, rfl⟩ := List.mem_map.1 ha <;> rfl

theorem entries_noTook (t t' : Chan) (w w' : World σ) (q : Multipart) : Act.took t' q ∉ entries t w w' := by
  intro ha
  rcases List.mem_append.1 ha with ha | ha <;> obtain ⟨_, _, h⟩ := List.mem_map.1 ha <;> cases h

/-! ## Where a thread is -/

/-- The second assignment of `set_parent`. -/
def setHeader (header : Json) (c : Chan) : K (World σ) Unit :=
  K.modify fun w => { w with parent := fun c' => if c' = c then ⟨(w.parent c').ids, header⟩ else w.parent c' }

/-- Where thread `t` is with message `q` after having done `tr`. -/
inductive Phase (env : Env) (I : Interp σ) (t : Chan) (q : Multipart) (w : World σ) :
    List Act → K (World σ) Unit → Prop
  | refused {r : Res Unit} : (∀ m, Accepted env.C env.J env.auth q m → r ≠ .ok ()) →
      (r = .ok () → Refused env.C env.J env.auth q) → Phase env I t q w [] (.done r)
  | begun {msg : XMessage} : Accepted env.C env.J env.auth q msg →
      Phase env I t q w [] (setParent msg.ids msg.body.header t >>= fun _ => afterParent env I msg t)
  | half {msg : XMessage} : Accepted env.C env.J env.auth q msg → (w.parent t).ids = msg.ids →
      Phase env I t q w [] (setHeader msg.body.header t >>= fun _ => afterParent env I msg t)
  | work {msg : XMessage} {tr : List Act} {p : K (World σ) Unit} : Accepted env.C env.J env.auth q msg →
      w.parent t = ⟨msg.ids, msg.body.header⟩ → Course env t msg tr →
      Safe t ⟨msg.ids, msg.body.header⟩ (Course env t msg) tr
        (fun tr r => r = .ok () → Block env msg t (eventsOf t tr)) p → Phase env I t q w tr p

theorem phase_dispatch (t : Chan) (q : Multipart) (w : World σ) : Phase env I t q w [] (dispatch env I q t) := by
  rcases deserialize_cases env.C env.J env.auth q with ⟨m, ha, h⟩ | ⟨hr, e, h, he⟩ | ⟨hu, s, h⟩
  · have : dispatch env I q t = dispatchMsg env I m t := by
      show K.bind (K.attempt (K.ofRes (deserialize env.C env.J env.auth q))) _ = _
      rw [h]; rfl
    rw [this]
    cases hl : env.log (.received (some t) m) with
    | ok _ =>
      have : dispatchMsg env I m t = (setParent m.ids m.body.header t >>= fun _ => afterParent env I m t) := by
        show K.bind (K.ofRes (env.log (.received (some t) m))) _ = _
        rw [hl]; rfl
      rw [this]
      exact .begun ha
    | exc e =>
      have : dispatchMsg env I m t = .done (.exc e) := by
        show K.bind (K.ofRes (env.log (.received (some t) m))) _ = _
        rw [hl]; rfl
      rw [this]
      exact .refused (fun _ _ h => by cases h) fun h => by cases h
    | ub s =>
      have : dispatchMsg env I m t = .done (.ub s) := by
        show K.bind (K.ofRes (env.log (.received (some t) m))) _ = _
        rw [hl]; rfl
      rw [this]
      exact .refused (fun _ _ h => by cases h) fun h => by cases h
    | hang =>
      have : dispatchMsg env I m t = .done .hang := by
        show K.bind (K.ofRes (env.log (.received (some t) m))) _ = _
        rw [hl]; rfl
      rw [this]
      exact .refused (fun _ _ h => by cases h) fun h => by cases h
  · have : dispatch env I q t = .done (.ok ()) := by
      show K.bind (K.attempt (K.ofRes (deserialize env.C env.J env.auth q))) _ = _
      rw [h]
      show (if e.isStd then _ else _) = _
      rw [if_pos he]; rfl
    rw [this]
    refine .refused (fun m hm _ => ?_) fun _ => hr
    rw [accepted_ok _ _ _ _ _ hm] at h; cases h
  · have : dispatch env I q t = .done (.ub s) := by
      show K.bind (K.attempt (K.ofRes (deserialize env.C env.J env.auth q))) _ = _
      rw [h]; rfl
    rw [this]
    exact .refused (fun _ _ h => by cases h) fun h => by cases h

/-- A step of the thread. -/
theorem Phase.step {t : Chan} {q : Multipart} {w w' : World σ} {tr : List Act} {p p' : K (World σ) Unit}
    (h : Phase env I t q w tr p) (hs : p.step w = some (p', w')) :
    Phase env I t q w' (tr ++ entries t w w') p' ∧ (∀ t', t' ≠ t → w'.parent t' = w.parent t') ∧
      ∃ msg, Accepted env.C env.J env.auth q msg ∧ Course env t msg (tr ++ entries t w w') := by
  have c0 : ∀ msg, Course env t msg [] := fun msg =>
    ⟨by simp, by simp, fun _ _ _ h => by simp at h, .inl rfl, by simp [eventsOf, repliesIn]⟩
  cases h with
  | refused _ _ => cases hs
  | begun ha =>
    rename_i msg
    simp only [K.step, setParent, Bind.bind, K.bind, K.modify, K.lift, Option.some.injEq, Prod.mk.injEq] at hs
    obtain ⟨rfl, hw⟩ := hs
    rw [entries_silent (w' := w') t (by rw [← hw]) (by rw [← hw])]
    subst hw
    exact ⟨.half ha (by simp), fun t' ht => by simp [ht], msg, ha, c0 msg⟩
  | half ha hid =>
    rename_i msg
    simp only [K.step, setHeader, Bind.bind, K.bind, K.modify, K.lift, Option.some.injEq, Prod.mk.injEq] at hs
    obtain ⟨rfl, hw⟩ := hs
    rw [entries_silent (w' := w') t (by rw [← hw]) (by rw [← hw])]
    subst hw
    exact ⟨.work ha (by simp [hid]) (c0 msg) (safe_afterParent I msg), fun t' ht => by simp [ht], msg, ha, c0 msg⟩
  | work ha hp hc hsafe =>
    rename_i msg
    obtain ⟨h1, h2, h3⟩ := hsafe.step hp hs
    exact ⟨.work ha (by rw [h1.parent]; exact hp) h2 h3, fun t' _ => by rw [h1.parent], msg, ha, h2⟩

/-- Another thread or an arrival does not matter. -/
theorem Phase.other {t : Chan} {q : Multipart} {w w' : World σ} {tr : List Act} {p : K (World σ) Unit}
    (h : Phase env I t q w tr p) (hw : w'.parent t = w.parent t) : Phase env I t q w' tr p := by
  cases h with
  | refused h1 h2 => exact .refused h1 h2
  | begun ha => exact .begun ha
  | half ha h => exact .half ha (by rw [hw]; exact h)
  | work ha h1 h2 h3 => exact .work ha (by rw [hw]; exact h1) h2 h3

/-! ## The invariant -/

/-- A message that has been dealt with. -/
def Finished (env : Env) (t : Chan) (q : Multipart) (seg : List Act) : Prop :=
  (Refused env.C env.J env.auth q ∧ eventsOf t seg = []) ∨
  ∃ msg, Accepted env.C env.J env.auth q msg ∧ Block env msg t (eventsOf t seg)

/-- The message in hand. -/
def InHand (env : Env) (t : Chan) (q : Multipart) (seg : List Act) : Prop :=
  eventsOf t seg = [] ∨ ∃ msg, Accepted env.C env.J env.auth q msg ∧ 
    (OpenBlock env msg t (eventsOf t seg) ∨ Block env msg t (eventsOf t seg))

def Bounded (t : Chan) (seg : List Act) : Prop := (repliesIn (eventsOf t seg)).length ≤ 1 + abortedBy t seg

structure CInv (env : Env) (I : Interp σ) (s : Conc σ) : Prop where
  meant : ∀ pre t e post, s.log = pre ++ .did t e :: post → Meant env pre t e
  finished : ∀ a t q seg q' post, s.log = a ++ .took t q :: seg ++ .took t q' :: post → (∀ q'', Act.took t q'' ∉ seg) →
    Finished env t q seg ∧ Bounded t seg
  thread : ∀ t, ((∀ a ∈ s.log, a.thread ≠ t) ∧ s.prog t = .done (.ok ())) ∨
    ∃ a q seg, s.log = a ++ .took t q :: seg ∧ (∀ q', Act.took t q' ∉ seg) ∧
      Phase env I t q s.w (own t seg) (s.prog t) ∧ Bounded t seg ∧ InHand env t q seg

/-- A step that logs nothing and touches neither programs nor parents. -/
theorem CInv.quiet {s s' : Conc σ} (h : CInv env I s) (h1 : s'.log = s.log) (h2 : s'.prog = s.prog)
    (h3 : s'.w.parent = s.w.parent) : CInv env I s' := by
  refine ⟨by rw [h1]; exact h.meant, by rw [h1]; exact h.finished, fun t => ?_⟩
  rw [h1, h2]
  rcases h.thread t with h' | ⟨a, q, seg, h4, h5, h6, h7⟩
  · exact .inl h'
  · exact .inr ⟨a, q, seg, h4, h5, h6.other (by rw [h3]), h7⟩

theorem snoc_split {α : Type} {l pre post : List α} {x y : α} (h : l ++ [x] = pre ++ y :: post) :
    (post = [] ∧ y = x ∧ pre = l) ∨ ∃ post', post = post' ++ [x] ∧ l = pre ++ y :: post' := by
  rcases List.eq_nil_or_concat post with rfl | ⟨post', z, rfl⟩
  · obtain ⟨rfl, h2⟩ := List.append_inj' h rfl
    cases List.singleton_inj.1 h2
    exact .inl ⟨rfl, rfl, rfl⟩
  · rw [List.concat_eq_append, ← List.cons_append, ← List.append_assoc] at h
    obtain ⟨h1, h2⟩ := List.append_inj' h rfl
    cases List.singleton_inj.1 h2
    exact .inr ⟨post', List.concat_eq_append, h1⟩

/-- The part since the last `took` is determined. -/
theorem last_took {t : Chan} {l a a' : List Act} {q q' : Multipart} {seg seg' : List Act} (h : l = a ++ .took t q :: seg)
    (hn : ∀ x, Act.took t x ∉ seg) (h' : l = a' ++ .took t q' :: seg') (hn' : ∀ x, Act.took t x ∉ seg') :
    q = q' ∧ seg = seg' := by
  subst h
  induction a generalizing a' with
  | nil =>
    cases a' with
    | nil => simp only [List.nil_append, List.cons.injEq, Act.took.injEq] at h'; exact ⟨h'.1.2, h'.2⟩
    | cons y a' =>
      simp only [List.nil_append, List.cons_append, List.cons.injEq] at h'
      exact absurd (by rw [h'.2]; simp) (hn q')
  | cons x a ih =>
    cases a' with
    | nil =>
      simp only [List.nil_append, List.cons_append, List.cons.injEq] at h'
      exact absurd (by rw [← h'.2]; simp) (hn' q)
    | cons y a' =>
      simp only [List.cons_append, List.cons.injEq] at h'
      exact ih h'.2

/-- Thread `t` takes a message. -/
theorem CInv.take {s s' : Conc σ} (h : CInv env I s) (t : Chan) (q : Multipart) (hp : s.prog t = .done (.ok ()))
    (h1 : s'.log = s.log ++ [.took t q]) (h2 : s'.prog = setProg s t (dispatch env I q t))
    (h3 : s'.w.parent = s.w.parent) : CInv env I s' := by
  refine ⟨?_, ?_, ?_⟩
  · intro pre t' e post heq
    rw [h1] at heq
    rcases snoc_split heq with ⟨_, h, _⟩ | ⟨post', _, h'⟩
    · cases h
    · exact h.meant _ _ _ _ h'
  · intro a t' q₁ seg q₂ post heq hn
    rw [h1] at heq
    rcases snoc_split heq with ⟨rfl, hq, hl⟩ | ⟨post', _, h'⟩
    · cases hq
      rcases h.thread t with ⟨h', _⟩ | ⟨a', q', seg', h4, h5, h6, h7, h8⟩
      · exact absurd rfl (h' (.took t q₁) (by rw [← hl]; simp))
      · obtain ⟨rfl, rfl⟩ := last_took hl.symm hn h4 h5
        refine ⟨?_, h7⟩
        rw [hp] at h6
        generalize htr : own t seg = tr at h6
        cases h6 with
        | refused g1 g2 => exact .inl ⟨g2 rfl, by rw [← eventsOf_own, htr]; rfl⟩
        | work ha _ _ hs => exact .inr ⟨_, ha, by rw [← eventsOf_own, htr]; exact hs rfl⟩
    · exact h.finished _ _ _ _ _ _ h' hn
  · intro t'
    by_cases ht : t' = t
    · subst ht
      refine .inr ⟨s.log, q, [], h1, by simp, ?_, by simp [Bounded, eventsOf, repliesIn], .inl rfl⟩
      rw [h2]
      simp only [setProg, if_true]
      exact phase_dispatch _ _ _
    · rw [h1, h2]
      simp only [setProg, if_neg ht]
      rcases h.thread t' with ⟨h', h''⟩ | ⟨a', q', seg', h4, h5, h6, h7, h8⟩
      · refine .inl ⟨fun a ha => ?_, h''⟩
        rcases List.mem_append.1 ha with ha | ha
        · exact h' a ha
        · rw [List.mem_singleton.1 ha]; exact fun h => ht h.symm
      · have ho : own t' (seg' ++ [.took t q]) = own t' seg' := by
          rw [own_append, own_of_none (l := [Act.took t q]) (t' := t) (by intro a ha; rw [List.mem_singleton.1 ha]; rfl) (fun h => ht h.symm),
            List.append_nil]
        refine .inr ⟨a', q', seg' ++ [.took t q], by rw [h4]; simp, ?_, ?_, ?_, ?_⟩
        · intro x hx
          rcases List.mem_append.1 hx with hx | hx
          · exact h5 x hx
          · cases List.mem_singleton.1 hx; exact ht rfl
        · rw [ho]; exact h6.other (by rw [h3])
        · unfold Bounded at h7 ⊢
          rw [← eventsOf_own, ← abortedBy_own, ho, eventsOf_own, abortedBy_own]; exact h7
        · unfold InHand at h8 ⊢
          rw [← eventsOf_own, ho, eventsOf_own]; exact h8

theorem mem_append_split {α : Type} {l es pre post : List α} {y : α} (h : l ++ es = pre ++ y :: post) :
    (∃ post', l = pre ++ y :: post') ∨ ∃ e₁, es = e₁ ++ y :: post ∧ pre = l ++ e₁ := by
  rcases List.append_eq_append_iff.1 h with ⟨a', h1, h2⟩ | ⟨c', h1, h2⟩
  · exact .inr ⟨a', h2, h1⟩
  · cases c' with
    | nil => exact .inr ⟨[], by simpa using h2.symm, by simpa using h1.symm⟩
    | cons z c' =>
      simp only [List.cons_append, List.cons.injEq] at h2
      exact .inl ⟨c', by rw [h1, h2.1]⟩

theorem own_mem {t : Chan} {l : List Act} {a : Act} (h : a ∈ own t l) : a ∈ l := (List.mem_filter.1 h).1

/-- A step of thread `t`. -/
theorem CInv.act {s : Conc σ} (h : CInv env I s) (t : Chan) (p : K (World σ) Unit) (w' : World σ)
    (hs : (s.prog t).step s.w = some (p, w')) :
    CInv env I { s with w := w', prog := setProg s t p, log := s.log ++ entries t s.w w' } := by
  rcases h.thread t with ⟨_, h'⟩ | ⟨a₀, q₀, seg₀, h4, h5, h6, h7, h8⟩
  · rw [h'] at hs; cases hs
  obtain ⟨hph, hpar, msg, ha, hc⟩ := h6.step hs
  have hown : own t (seg₀ ++ entries t s.w w') = own t seg₀ ++ entries t s.w w' := by
    rw [own_append, own_of_all (entries_thread t s.w w')]
  have hno : ∀ x, Act.took t x ∉ seg₀ ++ entries t s.w w' := by
    intro x hx
    rcases List.mem_append.1 hx with hx | hx
    · exact h5 x hx
    · exact entries_noTook _ _ _ _ _ hx
  refine ⟨?_, ?_, ?_⟩
  · intro pre t' e post heq
    rcases mem_append_split heq with ⟨post', h'⟩ | ⟨e₁, h1, rfl⟩
    · exact h.meant _ _ _ _ h'
    · have ht : t' = t := entries_thread t s.w w' (.did t' e) (by rw [h1]; simp)
      subst ht
      have hok := hc.ok (own t' seg₀ ++ e₁) e post (by rw [h1]; simp)
      have hh : Handling (s.log ++ e₁) t' q₀ := by
        refine ⟨a₀, seg₀ ++ e₁, by rw [h4]; simp, fun x hx => hno x ?_⟩
        rw [h1]
        rcases List.mem_append.1 hx with hx | hx
        · exact List.mem_append_left _ hx
        · exact List.mem_append_right _ (List.mem_append_left _ hx)
      have hdr : ∀ q, Act.drained t' q ∈ own t' seg₀ ++ e₁ → Drained (s.log ++ e₁) t' q := by
        intro q hq
        have : Act.drained t' q ∈ seg₀ ++ e₁ := by
          rcases List.mem_append.1 hq with hq | hq
          · exact List.mem_append_left _ (own_mem hq)
          · exact List.mem_append_right _ hq
        obtain ⟨x, y, hxy⟩ := List.append_of_mem this
        refine ⟨a₀ ++ .took t' q₀ :: x, y, ?_, ?_⟩
        · rw [h4, List.append_assoc, List.cons_append, hxy]; simp
        · intro z hz
          refine hno z ?_
          rw [h1, ← List.append_assoc, hxy]
          simp [hz]
      cases e with
      | reply c m w =>
        rcases hok with ⟨rfl, g1, g2⟩ | ⟨rfl, q, msg', hq, hacc, g1, g2⟩
        · exact .inl ⟨rfl, q₀, msg, hh, ha, g1, g2⟩
        · exact .inr ⟨rfl, q, msg', hdr q hq, hacc, g1, g2⟩
      | pub c m w => exact ⟨fun hct => ⟨q₀, msg, hh, ha, hok.1 hct⟩, hok.2⟩
      | stdin m w => exact fun hct => ⟨q₀, msg, hh, ha, hok hct⟩
      | _ => trivial
  · intro a t' q₁ seg q₂ post heq hn
    rcases mem_append_split heq with ⟨post', h'⟩ | ⟨e₁, h1, _⟩
    · exact h.finished _ _ _ _ _ _ h' hn
    · exact absurd (by rw [h1]; simp) (entries_noTook t t' s.w w' q₂)
  · intro t'
    by_cases ht : t' = t
    · subst ht
      refine .inr ⟨a₀, q₀, seg₀ ++ entries t' s.w w', by simp [h4], hno, ?_, ?_, ?_⟩
      · simp only [setProg, if_true]
        rw [hown]; exact hph
      · have := hc.replies
        rw [← hown, eventsOf_own, abortedBy_own] at this
        exact this
      · have := hc.block
        rw [← hown, eventsOf_own] at this
        rcases this with h | h
        · exact .inl h
        · exact .inr ⟨msg, ha, h⟩
    · simp only [setProg, if_neg ht]
      rcases h.thread t' with ⟨h', h''⟩ | ⟨a', q', seg', g4, g5, g6, g7, g8⟩
      · refine .inl ⟨fun a ha => ?_, h''⟩
        rcases List.mem_append.1 ha with ha | ha
        · exact h' a ha
        · rw [entries_thread _ _ _ a ha]; exact fun h => ht h.symm
      · have ho : own t' (seg' ++ entries t s.w w') = own t' seg' := by
          rw [own_append, own_of_none (entries_thread t s.w w') (fun h => ht h.symm), List.append_nil]
        refine .inr ⟨a', q', seg' ++ entries t s.w w', by simp [g4], ?_, ?_, ?_, ?_⟩
        · intro x hx
          rcases List.mem_append.1 hx with hx | hx
          · exact g5 x hx
          · exact entries_noTook _ _ _ _ _ hx
        · rw [ho]; exact g6.other (hpar t' ht)
        · unfold Bounded at g7 ⊢
          rw [← eventsOf_own, ← abortedBy_own, ho, eventsOf_own, abortedBy_own]; exact g7
        · unfold InHand at g8 ⊢
          rw [← eventsOf_own, ho, eventsOf_own]; exact g8

theorem cinv_reach {st : Start σ} {s : Conc σ} (h : CReach env I st s) : CInv env I s := by
  induction h with
  | start => exact ⟨fun _ _ _ _ h => by simp at h, fun _ _ _ _ _ _ h => by simp at h, fun _ => .inl ⟨by simp, rfl⟩⟩
  | step _ hs ih =>
    cases hs with
    | arriveShell q => exact ih.quiet rfl rfl rfl
    | arriveControl q => exact ih.quiet rfl rfl rfl
    | arriveStdin q => exact ih.quiet rfl rfl rfl
    | takeShell q r hp _ => exact ih.take .shell q hp rfl rfl rfl
    | takeControl q r hp _ => exact ih.take .control q hp rfl rfl rfl
    | act t p w' h => exact ih.act t p w' h

end Xeus
