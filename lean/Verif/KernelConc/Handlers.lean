import Verif.KernelConc.Lemmas

/-!
# Handlers under interference (no property statements here)
-/

namespace Xeus

open Spec K

variable {σ : Type} {t : Chan} {p : Parent} {env : Env} {n : Nat}

/-! ## Aborting the queue -/

/-- As `Grow`, just after taking `q` from the queue. -/
def Owing (env : Env) (t : Chan) (p : Parent) (n : Nat) (tr₀ : List Act) (q : Multipart) (tr : List Act) : Prop :=
  ∃ es, tr = tr₀ ++ es ∧ Good env t p es ∧ Act.drained t q ∈ es ∧
    (repliesIn (eventsOf t es)).length + 1 ≤ n + abortedBy t es

theorem Owing.grow {tr₀ tr : List Act} {q : Multipart} (h : Owing env t p n tr₀ q tr) : Grow env t p n tr₀ tr := by
  obtain ⟨es, h1, h2, _, h3⟩ := h
  exact ⟨es, h1, h2, by omega⟩

theorem Grow.drain {tr₀ tr : List Act} (q : Multipart) (h : Grow env t p n tr₀ tr) :
    Owing env t p n tr₀ q (tr ++ [.drained t q]) := by
  obtain ⟨es, h1, h2, h3⟩ := h
  refine ⟨es ++ [.drained t q], by simp [h1], h2.snoc_drained q, by simp, ?_⟩
  simp only [eventsOf_append, eventsOf, List.append_nil, abortedBy_append, abortedBy, if_true]
  omega

theorem safe_abortRequest {tr₀ tr : List Act} {q : Multipart} (h : Owing env t p n tr₀ q tr) :
    Safe (σ := σ) t p (Grow env t p n tr₀) tr (fun tr' _ => Grow env t p n tr₀ tr') (abortRequest env q) := by
  unfold abortRequest
  refine Safe.bind (Safe.attempt (Safe.ofRes (fun msg hmsg => ?_) fun e => ?_))
  · refine Safe.bind (Safe.ofRes (fun ty _ => ?_) fun _ => h.grow)
    refine Safe.bind (Safe.ofRes (fun ty' _ => ?_) fun _ => h.grow)
    refine safe_sendReplyTo _ _ _ _ _ _ h.grow (fun _ => h.grow) fun m wire h1 h2 => ?_
    have ha : Accepted env.C env.J env.auth q msg := by
      rcases deserialize_cases env.C env.J env.auth q with ⟨m', h, h'⟩ | ⟨_, e, h', _⟩ | ⟨_, s, h'⟩
      · rw [h'] at hmsg; cases hmsg; exact h
      · rw [h'] at hmsg; cases hmsg
      · rw [h'] at hmsg; cases hmsg
    have : Grow env t p n tr₀ (tr ++ [.did t (.reply .shell m wire)]) := by
      obtain ⟨es, h3, h4, hq, h5⟩ := h
      refine ⟨es ++ [.did t (.reply .shell m wire)], by simp [h3], h4.snoc_did
        (show EvOk env t p es (.reply .shell m wire) from Or.inr ⟨rfl, q, msg, hq, ha, h1, h2⟩) ?_, ?_⟩
      · rintro ⟨_, _, _, h, _⟩; cases h
      · simp only [eventsOf_append, eventsOf, if_true, repliesIn_app, repliesIn, abortedBy_append, abortedBy,
          List.length_append, List.length_cons, List.length_nil]
        omega
    exact ⟨this, this⟩
  · simp only
    split
    · exact h.grow
    · exact h.grow

theorem does_abortLoop (k : Nat) : Does (σ := σ) env t p n n (abortLoop env k) := by
  induction k with
  | zero => exact Does.pure _
  | succ k ih =>
    intro tr₀ tr h
    unfold abortLoop
    refine Safe.bind ?_
    intro w hw
    cases hq : w.shellQ with
    | nil =>
      have he : entries t w w = [] := entries_silent t rfl rfl
      simp only [hq, he, List.append_nil]
      exact ⟨⟨rfl, List.prefix_refl _, List.suffix_refl _⟩, h, fun b hb => by cases hb; exact h, fun _ hb => by cases hb⟩
    | cons q r =>
      have he : entries t w { w with shellQ := r } = [.drained t q] := entries_drain t rfl hq
      simp only [hq, he]
      refine ⟨⟨rfl, List.prefix_refl _, by rw [hq]; exact List.suffix_cons _ _⟩, (h.drain q).grow, fun b hb => ?_,
        fun _ hb => by cases hb⟩
      cases hb
      refine Safe.bind ((safe_abortRequest (h.drain q)).mono (fun _ h => h) fun tr' r hr => ?_)
      cases r with
      | ok _ => exact ih tr₀ tr' hr
      | error e => exact hr

theorem does_abortQueue : Does (σ := σ) env t p n n (abortQueue env) :=
  Does.bind0 (Does.read _) (fun _ => does_abortLoop _) (Nat.le_refl _)

/-! ## Handlers -/

theorem does_getMetadata : Does (σ := σ) env t p n n (getMetadata env) :=
  Does.bind0 (Does.lift (fun _ => rfl) (fun _ => rfl) fun _ => rfl) (fun _ => Does.pure _) (Nat.le_refl _)

theorem does_announce (code : Str) (silent : Bool) : Does (σ := σ) env t p n n (announce env code silent) := by
  unfold announce
  split
  · refine Does.bind0 ?_ (fun _ => Does.bind0 (Does.read _) (fun _ => does_publishOp _) (Nat.le_refl _)) (Nat.le_refl _)
    refine Does.lift ?_ ?_ ?_ <;> intro w <;> split <;> rfl
  · exact Does.pure _

theorem does_execute (I : Interp σ) (m : XMessage) : Does env t p 0 1 (executeRequest env I m t) := by
  refine Does.catchStd ?_ fun _ => Does.pure _
  unfold executeBody
  refine Does.bind0 (Does.ofRes _) (fun _ => ?_) (Nat.le_succ _)
  refine Does.bind0 (Does.ofRes _) (fun _ => ?_) (Nat.le_succ _)
  refine Does.bind0 (Does.ofRes _) (fun _ => ?_) (Nat.le_succ _)
  refine Does.bind0 (Does.ofRes _) (fun _ => ?_) (Nat.le_succ _)
  refine Does.bind0 (Does.ofRes _) (fun _ => ?_) (Nat.le_succ _)
  refine Does.bind0 (Does.ofRes _) (fun _ => ?_) (Nat.le_succ _)
  refine Does.bind0 (Does.ofRes _) (fun _ => ?_) (Nat.le_succ _)
  refine Does.bind0 does_getMetadata (fun _ => ?_) (Nat.le_succ _)
  refine Does.bind0 ?_ (fun _ => ?_) (Nat.le_succ _)
  · unfold interpExecute
    refine Does.bind0 (does_announce _ _) (fun _ => ?_) (Nat.le_refl _)
    refine Does.bind0 (Does.read _) (fun _ => ?_) (Nat.le_refl _)
    refine Does.bind0 (does_userCall does_op _ _) (fun _ => ?_) (Nat.le_refl _)
    exact Does.bind0 (Does.read _) (fun _ => Does.ofRes _) (Nat.le_refl _)
  · refine Does.bind0 (Does.ofRes _) (fun _ => ?_) (Nat.le_succ _)
    refine Does.bind (does_sendReply _ _ _) (fun _ => ?_) (Nat.le_refl _)
    refine Does.bind0 ?_ (fun _ => ?_) (Nat.le_refl _)
    · unfold storeK
      split
      · exact does_silent (fun _ => rfl) (fun _ => rfl) fun _ => rfl
      · exact Does.pure _
    · unfold abortK
      split
      · exact does_abortQueue
      · exact Does.pure _

theorem does_runHandler (I : Interp σ) (h : Option Nat) (m : XMessage) : Does env t p n n (runHandler env I h m) := by
  unfold runHandler
  split
  · exact Does.pure _
  · exact does_userCall does_op _ _

theorem does_commOpen (I : Interp σ) (m : XMessage) : Does env t p n n (commOpen env I m) := by
  unfold commOpen
  refine Does.bind0 (does_onComms _ _) (fun r => ?_) (Nat.le_refl _)
  refine Does.bind0 (Does.attempt ?_) (fun res => ?_) (Nat.le_refl _)
  · split
    · exact Does.throw _
    · exact does_userCall does_op _ _
  · refine Does.bind0 (does_onComms _ _) (fun _ => ?_) (Nat.le_refl _)
    split
    · exact Does.pure _
    · exact Does.throw _

theorem notice_foreign (hc : Chan.control ≠ t) :
    (t = .shell ∧ (lit "shutdown" = lit "shutdown" ∨ lit "shutdown" = lit "interrupt")) ∨
      (t = .control ∧ lit "shutdown" ∈ outputTypes.map lit) := by
  cases t with
  | shell => exact .inl ⟨rfl, .inl rfl⟩
  | control => exact absurd rfl hc

theorem notice_foreign' (hc : Chan.control ≠ t) :
    (t = .shell ∧ (lit "interrupt" = lit "shutdown" ∨ lit "interrupt" = lit "interrupt")) ∨
      (t = .control ∧ lit "interrupt" ∈ outputTypes.map lit) := by
  cases t with
  | shell => exact .inl ⟨rfl, .inr rfl⟩
  | control => exact absurd rfl hc

theorem does_handle (I : Interp σ) (r : Req) (m : XMessage) : Does env t p 0 1 (handle env I r m t) := by
  cases r with
  | execute => exact does_execute I m
  | complete =>
    refine Does.bind0 (Does.ofRes _) (fun _ => ?_) (Nat.le_succ _)
    refine Does.bind0 (Does.ofRes _) (fun _ => ?_) (Nat.le_succ _)
    exact Does.bind0 (does_userCall does_op _ _) (fun _ => does_sendReply _ _ _) (Nat.le_succ _)
  | inspect =>
    refine Does.bind0 (Does.ofRes _) (fun _ => ?_) (Nat.le_succ _)
    refine Does.bind0 (Does.ofRes _) (fun _ => ?_) (Nat.le_succ _)
    refine Does.bind0 (Does.ofRes _) (fun _ => ?_) (Nat.le_succ _)
    exact Does.bind0 (does_userCall does_op _ _) (fun _ => does_sendReply _ _ _) (Nat.le_succ _)
  | history => exact Does.bind0 (Does.readR _) (fun _ => does_sendReply _ _ _) (Nat.le_succ _)
  | isComplete =>
    refine Does.bind0 (Does.ofRes _) (fun _ => ?_) (Nat.le_succ _)
    exact Does.bind0 (does_userCall does_op _ _) (fun _ => does_sendReply _ _ _) (Nat.le_succ _)
  | commInfo =>
    refine Does.bind0 (Does.ofRes _) (fun _ => ?_) (Nat.le_succ _)
    exact Does.bind0 (Does.readR _) (fun _ => does_sendReply _ _ _) (Nat.le_succ _)
  | commOpen => exact (does_commOpen I m).le (Nat.le_succ _)
  | commClose =>
    refine Does.le ?_ (Nat.le_succ _)
    refine Does.bind0 (Does.readR _) (fun _ => ?_) (Nat.le_refl _)
    refine Does.bind0 (does_runHandler I _ _) (fun _ => ?_) (Nat.le_refl _)
    exact does_silent (fun _ => rfl) (fun _ => rfl) fun _ => rfl
  | commMsg =>
    refine Does.le ?_ (Nat.le_succ _)
    exact Does.bind0 (Does.readR _) (fun _ => does_runHandler I _ _) (Nat.le_refl _)
  | kernelInfo =>
    refine Does.bind0 (does_userCall does_op _ _) (fun _ => ?_) (Nat.le_succ _)
    exact Does.bind0 (Does.ofRes _) (fun _ => does_sendReply _ _ _) (Nat.le_succ _)
  | shutdown =>
    refine Does.bind0 (Does.ofRes _) (fun _ => ?_) (Nat.le_succ _)
    refine Does.bind0 (does_userCall does_op _ _) (fun _ => ?_) (Nat.le_succ _)
    refine Does.bind0 (does_emit (fun _ => trivial) ?_ ?_) (fun _ => ?_) (Nat.le_succ _)
    · rintro ⟨_, _, _, h, _⟩; cases h
    · rintro ⟨_, _, _, h⟩; cases h
    · exact Does.bind0 (does_publish (by decide) notice_foreign _ _ _) (fun _ => does_sendReply _ _ _) (Nat.le_succ _)
  | interrupt => exact Does.bind0 (does_publish (by decide) notice_foreign' _ _ _) (fun _ => does_sendReply _ _ _) (Nat.le_succ _)
  | debug =>
    show Does env t p 0 1 (debugRequest env I m t)
    unfold debugRequest
    split
    · exact (Does.pure _).le (Nat.le_succ _)
    · refine Does.bind0 (does_userCall (does_dop I) _ _) (fun _ => ?_) (Nat.le_succ _)
      exact Does.bind0 does_getMetadata (fun _ => does_sendReply _ _ _) (Nat.le_succ _)

theorem does_handleType (I : Interp σ) (ty : Str) (m : XMessage) : Does env t p 0 1 (handleType env I ty m t) := by
  unfold handleType
  split
  · exact (Does.pure _).le (Nat.le_succ _)
  · exact Does.catchStd (does_handle I _ _) fun _ => Does.pure _

/-! ## A whole message -/

/-- What thread `t` may have done for a message. -/
structure Course (env : Env) (t : Chan) (msg : XMessage) (tr : List Act) : Prop where
  own : ∀ a ∈ tr, a.thread = t
  noTook : ∀ q, Act.took t q ∉ tr
  ok : ∀ pre e post, tr = pre ++ .did t e :: post → EvOk env t ⟨msg.ids, msg.body.header⟩ pre e
  block : eventsOf t tr = [] ∨ OpenBlock env msg t (eventsOf t tr) ∨ Block env msg t (eventsOf t tr)
  replies : (repliesIn (eventsOf t tr)).length ≤ 1 + abortedBy t tr

/-- The rest of `dispatchMsg` after `set_parent`. -/
def afterParent (env : Env) (I : Interp σ) (m : XMessage) (c : Chan) : K (World σ) Unit := do
  publishStatus env (lit "busy") c
  let t ← K.ofRes (m.body.header.value (lit "msg_type") Json.getStr [])
  handleType env I t m c
  publishStatus env (lit "idle") c

theorem mem_eventsOf {t : Chan} {es : List Act} {e : Ev} (h : e ∈ eventsOf t es) : Act.did t e ∈ es := by
  induction es with
  | nil => cases h
  | cons a es ih =>
    cases a with
    | did t' e' =>
      simp only [eventsOf] at h
      split at h
      · rename_i ht
        subst ht
        rcases List.mem_cons.1 h with rfl | h
        · exact List.mem_cons_self ..
        · exact List.mem_cons_of_mem _ (ih h)
      · exact List.mem_cons_of_mem _ (ih h)
    | _ => exact List.mem_cons_of_mem _ (ih h)

theorem isStatus_of {s : String} {msg : XMessage} {m : PubMessage} {wire : Multipart}
    (h1 : WfHeader env (lit "status") m.body.header) (h2 : t = t → m.body.parent = msg.body.header)
    (h3 : m.body.content = Json.put .null (lit "execution_state") (.str (lit s))) (h4 : m.body.metadata = .obj [])
    (h5 : m.body.buffers = []) : IsStatus env t s msg.body.header (.pub t m wire) :=
  ⟨m, wire, rfl, h1, h2 rfl, h3, h4, h5⟩

/-- After `busy` and some work of the handler. -/
theorem course_of_grow {msg : XMessage} {b : Ev} {tr : List Act} (hb : IsStatus env t "busy" msg.body.header b)
    (h : Grow env t ⟨msg.ids, msg.body.header⟩ 1 [.did t b] tr) :
    Course env t msg tr ∧ OpenBlock env msg t (eventsOf t tr) := by
  obtain ⟨es, rfl, hg, hr⟩ := h
  have ho : OpenBlock env msg t (eventsOf t ([Act.did t b] ++ es)) := by
    refine ⟨b, eventsOf t es, by simp [eventsOf], hb, fun e he => hg.quiet e (mem_eventsOf he)⟩
  have hbr : repliesIn [b] = [] := by obtain ⟨_, _, rfl, _⟩ := hb; rfl
  refine ⟨⟨?_, ?_, ?_, .inr (.inl ho), ?_⟩, ho⟩
  · intro a ha
    rcases List.mem_append.1 ha with ha | ha
    · rw [List.mem_singleton.1 ha]; rfl
    · exact hg.own a ha
  · intro q ha
    rcases List.mem_append.1 ha with ha | ha
    · cases List.mem_singleton.1 ha
    · exact hg.noTook q ha
  · intro pre e post heq
    cases pre with
    | nil =>
      simp only [List.nil_append, List.singleton_append, List.cons.injEq, Act.did.injEq] at heq
      obtain ⟨⟨_, rfl⟩, _⟩ := heq
      obtain ⟨m, wire, rfl, _, hp, _⟩ := hb
      exact ⟨fun _ => hp, fun h => absurd rfl h⟩
    | cons a pre =>
      simp only [List.cons_append, List.cons.injEq] at heq
      exact (hg.ok pre e post heq.2).mono fun _ h => List.mem_cons_of_mem _ h
  · simp only [eventsOf_append, eventsOf, if_true, repliesIn_app, abortedBy_append, abortedBy]
    rw [hbr]
    simpa using hr

theorem safe_afterParent (I : Interp σ) (msg : XMessage) :
    Safe t ⟨msg.ids, msg.body.header⟩ (Course env t msg) []
      (fun tr r => r = .ok () → Block env msg t (eventsOf t tr)) (afterParent env I msg t) := by
  have h0 : Course env t msg [] := ⟨by simp, by simp, fun _ _ _ h => by simp at h, .inl rfl, by simp [eventsOf, repliesIn]⟩
  refine Safe.bind (safe_publish _ _ _ _ _ h0 (fun _ h => by cases h) fun m wire h1 h2 h3 h4 h5 => ?_)
  have hb := isStatus_of (env := env) (t := t) (msg := msg) (wire := wire) h1 h2 h3 h4 h5
  have hg0 := Grow.refl (t := t) (p := ⟨msg.ids, msg.body.header⟩) env [Act.did t (.pub t m wire)]
  refine ⟨(course_of_grow hb (hg0.le (Nat.le_succ _))).1, ?_⟩
  refine Safe.bind (Safe.ofRes (fun ty _ => ?_) fun _ h => by cases h)
  refine Safe.bind ((does_handleType I ty msg _ _ hg0).mono (fun _ h => (course_of_grow hb h).1) fun tr r hr => ?_)
  cases r with
  | error e => intro h; cases h
  | ok _ =>
    obtain ⟨hc, ho⟩ := course_of_grow hb hr
    refine safe_publish _ _ _ _ _ hc (fun _ h => by cases h) fun m' wire' g1 g2 g3 g4 g5 => ?_
    have hi := isStatus_of (env := env) (t := t) (msg := msg) (wire := wire') g1 g2 g3 g4 g5
    have hblk : Block env msg t (eventsOf t (tr ++ [.did t (.pub t m' wire')])) := by
      obtain ⟨b, inner, h1, h2, h3⟩ := ho
      exact ⟨b, inner, _, by rw [eventsOf_append, h1]; simp [eventsOf], h2, h3, hi⟩
    refine ⟨⟨?_, ?_, ?_, .inr (.inr hblk), ?_⟩, fun _ => hblk⟩
    · intro a ha
      rcases List.mem_append.1 ha with ha | ha
      · exact hc.own a ha
      · rw [List.mem_singleton.1 ha]; rfl
    · intro q ha
      rcases List.mem_append.1 ha with ha | ha
      · exact hc.noTook q ha
      · cases List.mem_singleton.1 ha
    · intro pre e post heq
      rcases List.eq_nil_or_concat post with rfl | ⟨post', x, rfl⟩
      · obtain ⟨rfl, h2⟩ := List.append_inj' heq rfl
        cases List.singleton_inj.1 h2
        exact ⟨g2, fun h => absurd rfl h⟩
      · rw [List.concat_eq_append, ← List.cons_append, ← List.append_assoc] at heq
        exact hc.ok pre e post' (List.append_inj' heq rfl).1
    · have := hc.replies
      simpa [eventsOf_append, eventsOf, repliesIn_app, repliesIn, abortedBy_append, abortedBy] using this

end Xeus
