import Verif.KernelConc.Spec
import Verif.Kernel.Handlers

/-!
# Programs under interference: a proof rule (no property statements here)
-/

namespace Xeus

open Spec K

variable {σ : Type}

/-- What a step keeps. -/
structure Kept (w w' : World σ) : Prop where
  parent : w'.parent = w.parent
  out : w.out <+: w'.out
  shellQ : w'.shellQ <:+ w.shellQ

/-- Weakest precondition for a program of thread `t` handling a message with identities and header `p`, which other threads
interfere with between any two steps; they do not change the parent of `t`.  `V` holds for what was done so far after each
step, and `Q` at the end. -/
def Safe (t : Chan) (p : Parent) (V : List Act → Prop) {α : Type} :
    List Act → (List Act → Except Exc α → Prop) → K (World σ) α → Prop
  | tr, Q, .done (.ok a) => Q tr (.ok a)
  | tr, Q, .done (.exc e) => Q tr (.error e)
  | _, _, .done (.ub _) => True
  | _, _, .done .hang => True
  | tr, Q, .act f k => ∀ w : World σ, w.parent t = p →
      Kept w (f w).2 ∧ V (tr ++ entries t w (f w).2) ∧
      ((∀ b, (f w).1 = .ok b → Safe t p V (tr ++ entries t w (f w).2) Q (k (.ok b))) ∧
       (∀ e, (f w).1 = .exc e → Safe t p V (tr ++ entries t w (f w).2) Q (k (.error e))))

variable {t : Chan} {p : Parent} {V : List Act → Prop} {α β : Type}

theorem Safe.mono {tr : List Act} {Q Q' : List Act → Except Exc α → Prop} {V' : List Act → Prop} {m : K (World σ) α}
    (h : Safe t p V tr Q m) (hV : ∀ tr, V tr → V' tr) (hQ : ∀ tr r, Q tr r → Q' tr r) : Safe t p V' tr Q' m := by
  induction m generalizing tr with
  | done r => cases r <;> simp only [Safe] at h ⊢ <;> exact hQ _ _ h
  | act f k ih =>
    intro w hw
    obtain ⟨h1, h2, h3, h4⟩ := h w hw
    exact ⟨h1, hV _ h2, fun b hb => ih _ (h3 b hb), fun e he => ih _ (h4 e he)⟩

theorem Safe.bind {tr : List Act} {Q : List Act → Except Exc β → Prop} {m : K (World σ) α} {g : α → K (World σ) β}
    (h : Safe t p V tr (fun tr' r => match r with
      | .ok a => Safe t p V tr' Q (g a)
      | .error e => Q tr' (.error e)) m) : Safe t p V tr Q (m >>= g) := by
  show Safe t p V tr Q (m.bind g)
  induction m generalizing tr with
  | done r => cases r <;> exact h
  | act f k ih =>
    intro w hw
    obtain ⟨h1, h2, h3, h4⟩ := h w hw
    exact ⟨h1, h2, fun b hb => ih _ (h3 b hb), fun e he => ih _ (h4 e he)⟩

theorem Safe.attempt {tr : List Act} {Q : List Act → Except Exc (Except Exc α) → Prop} {m : K (World σ) α}
    (h : Safe t p V tr (fun tr' r => Q tr' (.ok r)) m) : Safe t p V tr Q m.attempt := by
  induction m generalizing tr with
  | done r => cases r <;> exact h
  | act f k ih =>
    intro w hw
    obtain ⟨h1, h2, h3, h4⟩ := h w hw
    exact ⟨h1, h2, fun b hb => ih _ (h3 b hb), fun e he => ih _ (h4 e he)⟩

theorem Safe.catchStd {tr : List Act} {Q : List Act → Except Exc α → Prop} {m : K (World σ) α} {g : Exc → K (World σ) α}
    (h : Safe t p V tr (fun tr' r => match r with
      | .ok a => Q tr' (.ok a)
      | .error e => if e.isStd then Safe t p V tr' Q (g e) else Q tr' (.error e)) m) :
    Safe t p V tr Q (K.catchStd m g) := by
  refine Safe.bind (Safe.attempt (h.mono (fun _ h => h) ?_))
  intro tr' r hr
  cases r with
  | ok a => exact hr
  | error e =>
    simp only at hr ⊢
    split
    · rename_i h; rw [if_pos h] at hr; exact hr
    · rename_i h; rw [if_neg h] at hr; exact hr

theorem Safe.ofRes {tr : List Act} {Q : List Act → Except Exc α → Prop} {r : Res α}
    (h1 : ∀ a, r = .ok a → Q tr (.ok a)) (h2 : ∀ e, Q tr (.error e)) :
    Safe t p V tr Q (K.ofRes r : K (World σ) α) := by
  cases r with
  | ok a => exact h1 a rfl
  | exc e => exact h2 e
  | ub _ => trivial
  | hang => trivial

theorem Safe.pure {tr : List Act} {Q : List Act → Except Exc α → Prop} {a : α} (h : Q tr (.ok a)) :
    Safe t p V tr Q (Pure.pure a : K (World σ) α) := h

theorem Safe.throw {tr : List Act} {Q : List Act → Except Exc α → Prop} {e : Exc} (h : Q tr (.error e)) :
    Safe t p V tr Q (K.throw e : K (World σ) α) := h

theorem entries_silent (t : Chan) {w w' : World σ} (h1 : w'.out = w.out) (h2 : w'.shellQ = w.shellQ) :
    entries t w w' = [] := by simp [entries, h1, h2]

theorem entries_out (t : Chan) {w w' : World σ} {es : List Ev} (h1 : w'.out = w.out ++ es) (h2 : w'.shellQ = w.shellQ) :
    entries t w w' = es.map (.did t) := by simp [entries, h1, h2]

theorem entries_drain (t : Chan) {w w' : World σ} {q : Multipart} (h1 : w'.out = w.out) (h2 : w.shellQ = q :: w'.shellQ) :
    entries t w w' = [.drained t q] := by simp [entries, h1, h2]

/-- An access that changes neither parents nor queue and causes no event. -/
theorem Safe.lift {tr : List Act} {Q : List Act → Except Exc α → Prop} {f : World σ → Res α × World σ} (hV : V tr)
    (h1 : ∀ w, (f w).2.parent = w.parent) (h2 : ∀ w, (f w).2.out = w.out) (h3 : ∀ w, (f w).2.shellQ = w.shellQ)
    (hQ : ∀ w a, w.parent t = p → (f w).1 = .ok a → Q tr (.ok a)) (hE : ∀ e, Q tr (.error e)) :
    Safe t p V tr Q (K.lift f) := by
  intro w hw
  rw [entries_silent t (h2 w) (h3 w), List.append_nil]
  exact ⟨⟨h1 w, by rw [h2]; exact List.prefix_refl _, by rw [h3]; exact List.suffix_refl _⟩, hV, fun b hb => hQ w b hw hb, fun e _ => hE e⟩

theorem Safe.emit {tr : List Act} {Q : List Act → Except Exc Unit → Prop} {e : Ev} (hV : V (tr ++ [.did t e]))
    (hQ : Q (tr ++ [.did t e]) (.ok ())) : Safe t p V tr Q (emit e : K (World σ) Unit) := by
  intro w hw
  have h : entries t w { w with out := w.out ++ [e] } = [.did t e] :=
    entries_out t (w' := { w with out := w.out ++ [e] }) (es := [e]) rfl rfl
  exact ⟨⟨rfl, by simp, List.suffix_refl _⟩, by rw [h]; exact hV, fun _ _ => by rw [h]; exact hQ, fun _ h => by cases h⟩

/-! ## Events of a handler -/

/-- Who an event of thread `t` may be meant for. -/
def EvOk (env : Env) (t : Chan) (p : Parent) (pre : List Act) (e : Ev) : Prop :=
  match e with
  | .reply c m _ => (c = t ∧ m.ids = p.ids ∧ m.body.parent = p.header) ∨
      (c = .shell ∧ ∃ q msg, Act.drained t q ∈ pre ∧ Accepted env.C env.J env.auth q msg ∧ m.ids = msg.ids ∧
        m.body.parent = msg.body.header)
  | .pub c m _ => (c = t → m.body.parent = p.header) ∧ (c ≠ t → Foreign env t m)
  | .stdin m _ => t = .shell → m.ids = p.ids ∧ m.body.parent = p.header
  | _ => True

theorem EvOk.mono {env : Env} {pre pre' : List Act} {e : Ev} (h : EvOk env t p pre e) (hs : ∀ a ∈ pre, a ∈ pre') :
    EvOk env t p pre' e := by
  cases e with
  | reply c m w =>
    rcases h with h | ⟨h, q, msg, hq, h'⟩
    · exact .inl h
    · exact .inr ⟨h, q, msg, hs _ hq, h'⟩
  | _ => exact h

/-- Entries of thread `t` only, with proper events and no status notification. -/
structure Good (env : Env) (t : Chan) (p : Parent) (es : List Act) : Prop where
  own : ∀ a ∈ es, a.thread = t
  noTook : ∀ q, Act.took t q ∉ es
  ok : ∀ pre e post, es = pre ++ .did t e :: post → EvOk env t p pre e
  quiet : ∀ e, Act.did t e ∈ es → ¬ AnyStatus e

theorem Good.nil (env : Env) : Good env t p [] :=
  ⟨by simp, by simp, fun pre e post h => by simp at h, by simp⟩

theorem Good.snoc_did {env : Env} {es : List Act} {e : Ev} (h : Good env t p es) (hok : EvOk env t p es e)
    (hq : ¬ AnyStatus e) : Good env t p (es ++ [.did t e]) := by
  refine ⟨?_, ?_, ?_, ?_⟩
  · intro a ha
    rcases List.mem_append.1 ha with ha | ha
    · exact h.own a ha
    · rw [List.mem_singleton.1 ha]; rfl
  · intro q hq'
    rcases List.mem_append.1 hq' with ha | ha
    · exact h.noTook q ha
    · cases List.mem_singleton.1 ha
  · intro pre e' post heq
    rcases List.eq_nil_or_concat post with rfl | ⟨post', x, rfl⟩
    · have := List.append_inj' heq rfl
      obtain ⟨rfl, h2⟩ := this
      cases List.singleton_inj.1 h2
      exact hok
    · rw [List.concat_eq_append, ← List.cons_append, ← List.append_assoc] at heq
      exact h.ok pre e' post' (List.append_inj' heq rfl).1
  · intro e' he'
    rcases List.mem_append.1 he' with ha | ha
    · exact h.quiet e' ha
    · cases List.mem_singleton.1 ha; exact hq

theorem Good.snoc_drained {env : Env} {es : List Act} (q : Multipart) (h : Good env t p es) :
    Good env t p (es ++ [.drained t q]) := by
  refine ⟨?_, ?_, ?_, ?_⟩
  · intro a ha
    rcases List.mem_append.1 ha with ha | ha
    · exact h.own a ha
    · rw [List.mem_singleton.1 ha]; rfl
  · intro q hq'
    rcases List.mem_append.1 hq' with ha | ha
    · exact h.noTook q ha
    · cases List.mem_singleton.1 ha
  · intro pre e' post heq
    rcases List.eq_nil_or_concat post with rfl | ⟨post', x, rfl⟩
    · have := List.append_inj' heq rfl
      cases List.singleton_inj.1 this.2
    · rw [List.concat_eq_append, ← List.cons_append, ← List.append_assoc] at heq
      exact h.ok pre e' post' (List.append_inj' heq rfl).1
  · intro e' he'
    rcases List.mem_append.1 he' with ha | ha
    · exact h.quiet e' ha
    · cases List.mem_singleton.1 ha

theorem eventsOf_append (t : Chan) (a b : List Act) : eventsOf t (a ++ b) = eventsOf t a ++ eventsOf t b := by
  induction a with
  | nil => rfl
  | cons x a ih => cases x <;> simp only [List.cons_append, eventsOf, ih] <;> split <;> rfl

theorem abortedBy_append (t : Chan) (a b : List Act) : abortedBy t (a ++ b) = abortedBy t a + abortedBy t b := by
  induction a with
  | nil => simp [abortedBy]
  | cons x a ih => cases x <;> simp only [List.cons_append, abortedBy, ih] <;> split <;> omega

theorem repliesIn_app (a b : List Ev) : repliesIn (a ++ b) = repliesIn a ++ repliesIn b := by
  induction a with
  | nil => rfl
  | cons x a ih => cases x <;> simp only [List.cons_append, repliesIn, ih]

/-- What a handler may have added to `tr₀`: proper entries with at most `n` replies more than messages aborted. -/
def Grow (env : Env) (t : Chan) (p : Parent) (n : Nat) (tr₀ tr : List Act) : Prop :=
  ∃ es, tr = tr₀ ++ es ∧ Good env t p es ∧ (repliesIn (eventsOf t es)).length ≤ n + abortedBy t es

theorem Grow.refl (env : Env) (tr : List Act) : Grow env t p 0 tr tr :=
  ⟨[], by simp, Good.nil env, by simp [eventsOf, repliesIn]⟩

theorem Grow.le {env : Env} {n n' : Nat} {tr₀ tr : List Act} (h : Grow env t p n tr₀ tr) (hn : n ≤ n') :
    Grow env t p n' tr₀ tr := by
  obtain ⟨es, h1, h2, h3⟩ := h
  exact ⟨es, h1, h2, by omega⟩

/-- An event that is no reply. -/
theorem Grow.did {env : Env} {n : Nat} {tr₀ tr : List Act} {e : Ev} (h : Grow env t p n tr₀ tr)
    (hok : ∀ pre, EvOk env t p pre e) (hq : ¬ AnyStatus e) (hr : ¬ AnyReply e) : Grow env t p n tr₀ (tr ++ [.did t e]) := by
  obtain ⟨es, h1, h2, h3⟩ := h
  refine ⟨es ++ [.did t e], by simp [h1], h2.snoc_did (hok _) hq, ?_⟩
  have : repliesIn [e] = [] := by
    cases e with
    | reply c m w => exact absurd ⟨c, m, w, rfl⟩ hr
    | _ => rfl
  simp only [eventsOf_append, eventsOf, if_true, repliesIn_app, this, abortedBy_append, abortedBy, List.append_nil,
    Nat.add_zero]
  exact h3

/-- The reply to the message in hand. -/
theorem Grow.reply {env : Env} {n : Nat} {tr₀ tr : List Act} {m : XMessage} {w : Multipart} (h : Grow env t p n tr₀ tr)
    (h1 : m.ids = p.ids) (h2 : m.body.parent = p.header) : Grow env t p (n + 1) tr₀ (tr ++ [.did t (.reply t m w)]) := by
  obtain ⟨es, h3, h4, h5⟩ := h
  refine ⟨es ++ [.did t (.reply t m w)], by simp [h3], h4.snoc_did (show EvOk env t p es (.reply t m w) from Or.inl ⟨rfl, h1, h2⟩) ?_, ?_⟩
  · rintro ⟨_, _, _, h, _⟩; cases h
  · simp only [eventsOf_append, eventsOf, if_true, repliesIn_app, repliesIn, abortedBy_append, abortedBy, List.length_append,
      List.length_cons, List.length_nil]
    omega

/-- Programs that add such entries. -/
def Does (env : Env) (t : Chan) (p : Parent) (n n' : Nat) (m : K (World σ) α) : Prop :=
  ∀ tr₀ tr, Grow env t p n tr₀ tr → Safe t p (Grow env t p n' tr₀) tr (fun tr' _ => Grow env t p n' tr₀ tr') m

variable {env : Env} {n n' n'' : Nat}

theorem Does.bind {m : K (World σ) α} {g : α → K (World σ) β} (h1 : Does env t p n n' m) (h2 : ∀ a, Does env t p n' n'' (g a))
    (hn : n' ≤ n'') : Does env t p n n'' (m >>= g) := by
  intro tr₀ tr h
  refine Safe.bind ((h1 tr₀ tr h).mono (fun _ h => h.le hn) ?_)
  intro tr' r hr
  cases r with
  | ok a => exact h2 a tr₀ tr' hr
  | error e => exact hr.le hn

theorem Does.bind0 {m : K (World σ) α} {g : α → K (World σ) β} (h1 : Does env t p n n m) (h2 : ∀ a, Does env t p n n' (g a))
    (hn : n ≤ n') : Does env t p n n' (m >>= g) := Does.bind h1 h2 hn

theorem Does.attempt {m : K (World σ) α} (h : Does env t p n n' m) : Does env t p n n' m.attempt :=
  fun tr₀ tr hg => Safe.attempt (h tr₀ tr hg)

theorem Does.catchStd {m : K (World σ) α} {g : Exc → K (World σ) α} (h : Does env t p n n' m)
    (hg : ∀ e, Does env t p n' n' (g e)) : Does env t p n n' (K.catchStd m g) := by
  intro tr₀ tr hgr
  refine Safe.catchStd ((h tr₀ tr hgr).mono (fun _ h => h) ?_)
  intro tr' r hr
  cases r with
  | ok a => exact hr
  | error e =>
    simp only
    split
    · exact hg e tr₀ tr' hr
    · exact hr

theorem Does.ofRes (r : Res α) : Does (σ := σ) env t p n n (K.ofRes r) :=
  fun _ _ h => Safe.ofRes (fun _ _ => h) fun _ => h

theorem Does.pure (a : α) : Does (σ := σ) env t p n n (Pure.pure a) := fun _ _ h => h

theorem Does.throw (e : Exc) : Does (σ := σ) (α := α) env t p n n (K.throw e) := fun _ _ h => h

theorem Does.lift {f : World σ → Res α × World σ} (h1 : ∀ w, (f w).2.parent = w.parent) (h2 : ∀ w, (f w).2.out = w.out)
    (h3 : ∀ w, (f w).2.shellQ = w.shellQ) : Does env t p n n (K.lift f) :=
  fun _ _ h => Safe.lift h h1 h2 h3 (fun _ _ _ _ => h) fun _ => h

theorem Does.read (f : World σ → α) : Does env t p n n (K.read f) :=
  Does.lift (fun _ => rfl) (fun _ => rfl) fun _ => rfl

theorem Does.readR (f : World σ → Res α) : Does env t p n n (K.readR f) :=
  Does.lift (fun _ => rfl) (fun _ => rfl) fun _ => rfl

theorem Does.le {m : K (World σ) α} (h : Does env t p n n' m) (hn : n' ≤ n'') : Does env t p n n'' m :=
  fun tr₀ tr hg => (h tr₀ tr hg).mono (fun _ h => h.le hn) fun _ _ h => h.le hn

/-- An event that is no reply and no status notification. -/
theorem does_emit {e : Ev} (hok : ∀ pre, EvOk env t p pre e) (hq : ¬ AnyStatus e) (hr : ¬ AnyReply e) :
    Does (σ := σ) env t p n n (emit e) :=
  fun _ _ h => Safe.emit (h.did hok hq hr) (h.did hok hq hr)

theorem does_makeHeader (type : Str) : Does (σ := σ) env t p n n (makeHeader env type) :=
  Does.bind0 (Does.lift (fun _ => rfl) (fun _ => rfl) fun _ => rfl)
    (fun _ => Does.bind0 (Does.lift (fun _ => rfl) (fun _ => rfl) fun _ => rfl) (fun _ => Does.pure _) (Nat.le_refl _))
    (Nat.le_refl _)

/-- The header made is well-formed. -/
theorem safe_makeHeader {tr : List Act} {Q : List Act → Except Exc Json → Prop} (type : Str) (hV : V tr)
    (hQ : ∀ h, WfHeader env type h → Q tr (.ok h)) (hE : ∀ e, Q tr (.error e)) :
    Safe (σ := σ) t p V tr Q (makeHeader env type) := by
  refine Safe.bind (Safe.lift hV (fun _ => rfl) (fun _ => rfl) (fun _ => rfl) ?_ hE)
  intro w a _ _
  refine Safe.bind (Safe.lift hV (fun _ => rfl) (fun _ => rfl) (fun _ => rfl) ?_ hE)
  intro w' d _ _
  exact Safe.pure (hQ _ ⟨_, _, headerJson_eq _ _ _ _ _⟩)

theorem safe_parentHeader {tr : List Act} {Q : List Act → Except Exc Json → Prop} (c : Chan) (hV : V tr)
    (hQ : ∀ h, (c = t → h = p.header) → Q tr (.ok h)) (hE : ∀ e, Q tr (.error e)) :
    Safe (σ := σ) t p V tr Q (Xeus.parentHeader c) := by
  refine Safe.lift hV (fun _ => rfl) (fun _ => rfl) (fun _ => rfl) ?_ hE
  rintro w a hw h
  cases h
  exact hQ _ fun h => by subst h; simp only [hw]

theorem safe_parentIds {tr : List Act} {Q : List Act → Except Exc (List Str) → Prop} (c : Chan) (hV : V tr)
    (hQ : ∀ l, (c = t → l = p.ids) → Q tr (.ok l)) (hE : ∀ e, Q tr (.error e)) :
    Safe (σ := σ) t p V tr Q (parentIds c) := by
  refine Safe.lift hV (fun _ => rfl) (fun _ => rfl) (fun _ => rfl) ?_ hE
  rintro w a hw h
  cases h
  exact hQ _ fun h => by subst h; simp only [hw]

theorem safe_publish {tr : List Act} {Q : List Act → Except Exc Unit → Prop} (type : Str) (md ct : Json) (bufs : List Frame)
    (c : Chan) (hV : V tr) (hE : ∀ e, Q tr (.error e))
    (hP : ∀ m wire, WfHeader env type m.body.header → (c = t → m.body.parent = p.header) → m.body.content = ct →
      m.body.metadata = md → m.body.buffers = bufs →
      V (tr ++ [.did t (.pub c m wire)]) ∧ Q (tr ++ [.did t (.pub c m wire)]) (.ok ())) :
    Safe (σ := σ) t p V tr Q (publishMessage env type md ct bufs c) := by
  refine Safe.bind (safe_makeHeader type hV (fun h hh => ?_) hE)
  refine Safe.bind (safe_parentHeader c hV (fun ph hph => ?_) hE)
  refine Safe.bind (Safe.ofRes (fun _ _ => ?_) hE)
  refine Safe.bind (Safe.ofRes (fun wire _ => ?_) hE)
  have := hP ⟨topic env type, ⟨h, ph, md, ct, bufs⟩⟩ wire hh hph rfl rfl rfl
  exact Safe.emit this.1 this.2

theorem does_publish {type : Str} (ht : type ≠ lit "status") {c : Chan}
    (hc : c ≠ t → (t = .shell ∧ (type = lit "shutdown" ∨ type = lit "interrupt")) ∨
      (t = .control ∧ type ∈ outputTypes.map lit)) (md ct : Json) (bufs : List Frame) :
    Does (σ := σ) env t p n n (publishMessage env type md ct bufs c) := by
  intro tr₀ tr h
  refine safe_publish type md ct bufs c h (fun _ => h) fun m wire hh hp _ _ _ => ?_
  have : Grow env t p n tr₀ (tr ++ [.did t (.pub c m wire)]) := by
    refine h.did (fun _ => ⟨hp, fun hct => ⟨type, hh, hc hct⟩⟩) ?_ (by rintro ⟨_, _, _, h⟩; cases h)
    rintro ⟨_, _, _, he, hs⟩
    cases he
    rw [WfHeader.type hh] at hs
    exact ht (by simpa using hs)
  exact ⟨this, this⟩

theorem safe_sendReplyTo {tr : List Act} {Q : List Act → Except Exc Unit → Prop} (ids : List Str) (type : Str)
    (parent md ct : Json) (c : Chan) (hV : V tr) (hE : ∀ e, Q tr (.error e))
    (hP : ∀ m wire, m.ids = ids → m.body.parent = parent →
      V (tr ++ [.did t (.reply c m wire)]) ∧ Q (tr ++ [.did t (.reply c m wire)]) (.ok ())) :
    Safe (σ := σ) t p V tr Q (sendReplyTo env ids type parent md ct c) := by
  refine Safe.bind (safe_makeHeader type hV (fun h hh => ?_) hE)
  refine Safe.bind (Safe.ofRes (fun _ _ => ?_) hE)
  refine Safe.bind (Safe.ofRes (fun wire _ => ?_) hE)
  have := hP ⟨ids, ⟨h, parent, md, ct, []⟩⟩ wire rfl rfl
  exact Safe.emit this.1 this.2

theorem does_sendReply (type : Str) (md ct : Json) : Does (σ := σ) env t p n (n + 1) (sendReply env type md ct t) := by
  intro tr₀ tr h
  have h' := h.le (Nat.le_succ n)
  refine Safe.bind (safe_parentIds t h' (fun ids hids => ?_) fun _ => h')
  refine Safe.bind (safe_parentHeader t h' (fun ph hph => ?_) fun _ => h')
  refine safe_sendReplyTo ids type ph md ct t h' (fun _ => h') fun m wire h1 h2 => ?_
  have := h.reply (m := m) (w := wire) (h1.trans (hids rfl)) (h2.trans (hph rfl))
  exact ⟨this, this⟩

/-! ## User code -/

theorem does_silent {f : World σ → World σ} (h1 : ∀ w, (f w).parent = w.parent) (h2 : ∀ w, (f w).out = w.out)
    (h3 : ∀ w, (f w).shellQ = w.shellQ) : Does env t p n n (K.modify f) := Does.lift h1 h2 h3

theorem does_dispatchStdin (wire : Multipart) : Does (σ := σ) env t p n n (dispatchStdin env wire) := by
  refine Does.catchStd ?_ fun _ => Does.pure _
  refine Does.bind0 (Does.ofRes _) (fun _ => ?_) (Nat.le_refl _)
  refine Does.bind0 (Does.ofRes _) (fun _ => ?_) (Nat.le_refl _)
  refine Does.bind0 (Does.ofRes _) (fun _ => ?_) (Nat.le_refl _)
  exact does_silent (fun _ => rfl) (fun _ => rfl) fun _ => rfl

theorem does_recvStdin : Does (σ := σ) env t p n n recvStdin := by
  refine Does.lift ?_ ?_ ?_ <;> intro w <;> split <;> rfl

theorem does_sendStdin (type : Str) (md ct : Json) : Does (σ := σ) env t p n n (sendStdin env type md ct) := by
  intro tr₀ tr h
  refine Safe.bind (safe_parentIds .shell h (fun ids hids => ?_) fun _ => h)
  refine Safe.bind (safe_makeHeader type h (fun hd _ => ?_) fun _ => h)
  refine Safe.bind (safe_parentHeader .shell h (fun ph hph => ?_) fun _ => h)
  refine Safe.bind (Safe.ofRes (fun _ _ => ?_) fun _ => h)
  refine Safe.bind (Safe.ofRes (fun wire _ => ?_) fun _ => h)
  have h' : Grow env t p n tr₀ (tr ++ [.did t (.stdin ⟨ids, ⟨hd, ph, md, ct, []⟩⟩ wire)]) := by
    refine h.did (fun _ ht => ⟨hids ht.symm, hph ht.symm⟩) ?_ ?_
    · rintro ⟨_, _, _, h, _⟩; cases h
    · rintro ⟨_, _, _, h⟩; cases h
  refine Safe.bind (Safe.emit h' ?_)
  exact (Does.bind0 does_recvStdin (fun a => does_dispatchStdin a) (Nat.le_refl _)) tr₀ _ h'

theorem does_blockingInput (prompt : Str) (pwd : Bool) : Does (σ := σ) env t p n n (blockingInput env prompt pwd) := by
  refine Does.bind0 (does_silent (fun _ => rfl) (fun _ => rfl) fun _ => rfl) (fun _ => ?_) (Nat.le_refl _)
  refine Does.bind0 (does_sendStdin _ _ _) (fun _ => ?_) (Nat.le_refl _)
  refine Does.bind0 (Does.read _) (fun _ => ?_) (Nat.le_refl _)
  exact Does.bind0 (does_silent (fun _ => rfl) (fun _ => rfl) fun _ => rfl) (fun _ => Does.pure _) (Nat.le_refl _)

theorem does_onComms (act : CommAct) (f : Comms → Res (α × Comms)) : Does (σ := σ) env t p n n (onComms act f) := by
  refine Does.lift ?_ ?_ ?_ <;> intro w <;> split <;> rfl

theorem userTypes_ne {s : Str} (h : s ∈ userTypes) : s ≠ lit "status" := by
  rintro rfl; revert h; decide

theorem userTypes_foreign {s : Str} (h : s ∈ userTypes) (hc : Chan.shell ≠ t) :
    (t = .shell ∧ (s = lit "shutdown" ∨ s = lit "interrupt")) ∨ (t = .control ∧ s ∈ outputTypes.map lit) := by
  cases t with
  | shell => exact absurd rfl hc
  | control => exact .inr ⟨rfl, h⟩

theorem does_publishOp (o : PubOp) : Does (σ := σ) env t p n n (publishOp env o) :=
  does_publish (userTypes_ne (PubOp.type_mem o)) (userTypes_foreign (PubOp.type_mem o)) _ _ _

theorem does_op (o : Op) : Does (σ := σ) env t p n n (o.sem env) := by
  cases o with
  | pub q => exact Does.bind0 (does_publishOp q) (fun _ => Does.pure _) (Nat.le_refl _)
  | input pr pw => exact Does.bind0 (does_blockingInput pr pw) (fun _ => Does.pure _) (Nat.le_refl _)
  | parentHeader => exact Does.bind0 (Does.read _) (fun _ => Does.pure _) (Nat.le_refl _)
  | history q => exact Does.bind0 (Does.readR _) (fun _ => Does.pure _) (Nat.le_refl _)
  | comm o =>
    refine Does.bind0 ?_ (fun g => does_onComms _ _) (Nat.le_refl _)
    unfold commGuid
    split
    · exact Does.lift (fun _ => rfl) (fun _ => rfl) fun _ => rfl
    · exact Does.pure _
  | commSend k a md d bufs =>
    intro tr₀ tr h
    refine Safe.bind (Safe.lift h (fun _ => rfl) (fun _ => rfl) (fun _ => rfl) ?_ fun _ => h)
    intro w r _ hr
    have hk : r.1 ∈ userTypes := by rw [outgoing_type hr]; exact CommMsg.type_mem k
    exact (Does.bind0 (does_publish (userTypes_ne hk) (userTypes_foreign hk) _ _ _) (fun _ => Does.pure _) (Nat.le_refl _)) tr₀ tr h

theorem does_exec {Ω : Type} {sem : Ω → K (World σ) Val} (hs : ∀ o, Does env t p n n (sem o)) (q : Prog σ Ω α) :
    Does env t p n n (q.exec sem) := by
  induction q with
  | ret a => exact Does.pure _
  | throw e => exact Does.throw _
  | ub w => exact Does.ofRes _
  | hang => exact Does.ofRes _
  | get k ih => exact Does.bind0 (Does.read _) ih (Nat.le_refl _)
  | set s k ih => exact Does.bind0 (does_silent (fun _ => rfl) (fun _ => rfl) fun _ => rfl) (fun _ => ih) (Nat.le_refl _)
  | call o k ih => exact Does.bind0 (hs o).attempt ih (Nat.le_refl _)

theorem does_dop (I : Interp σ) (o : DOp) : Does env t p n n (o.sem env I) := by
  cases o with
  | base o => exact does_op o
  | toShell j =>
    refine Does.bind0 ?_ (fun _ => Does.pure _) (Nat.le_refl _)
    refine Does.bind0 (Does.ofRes _) (fun _ => ?_) (Nat.le_refl _)
    refine Does.bind0 ?_ (fun _ => Does.ofRes _) (Nat.le_refl _)
    refine Does.bind0 (Does.ofRes _) (fun _ => ?_) (Nat.le_refl _)
    exact Does.bind0 (does_exec does_op _) (fun _ => Does.ofRes _) (Nat.le_refl _)

theorem does_userCall {Ω : Type} {sem : Ω → K (World σ) Val} (hs : ∀ o, Does env t p n n (sem o)) (k : Call)
    (q : Prog σ Ω α) : Does env t p n n (userCall sem k q) := by
  have he : ∀ e : Ev, (∀ c m w, e ≠ .pub c m w) → (∀ c m w, e ≠ .reply c m w) → (∀ m w, e ≠ .stdin m w) →
      Does (σ := σ) env t p n n (emit e) := by
    intro e h1 h2 h3
    refine does_emit ?_ ?_ ?_
    · intro pre
      cases e with
      | pub c m w => exact absurd rfl (h1 c m w)
      | reply c m w => exact absurd rfl (h2 c m w)
      | stdin m w => exact absurd rfl (h3 m w)
      | _ => trivial
    · rintro ⟨c, m, w, h, _⟩; exact h1 c m w h
    · rintro ⟨c, m, w, h⟩; exact h2 c m w h
  refine Does.bind0 (he _ (by simp) (by simp) (by simp)) (fun _ => ?_) (Nat.le_refl _)
  refine Does.bind0 (does_exec hs q).attempt (fun r => ?_) (Nat.le_refl _)
  cases r with
  | ok a => exact Does.pure _
  | error e => exact Does.bind0 (he _ (by simp) (by simp) (by simp)) (fun _ => Does.throw _) (Nat.le_refl _)

end Xeus
