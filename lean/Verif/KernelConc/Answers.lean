import Verif.KernelConc.AnswerSpec
import Verif.KernelConc.Invariant
import Verif.Kernel.Requests

/-!
# Replies under interference: a proof rule, and user code (no property statements here)
-/

namespace Xeus

open Spec K

variable {σ : Type}

/-- As `Safe`, keeping track of what was done, in states satisfying `A`. -/
def Wp (t : Chan) (A : World σ → Prop) {α : Type} :
    List Act → (List Act → Except Exc α → Prop) → K (World σ) α → Prop
  | tr, Q, .done (.ok a) => Q tr (.ok a)
  | tr, Q, .done (.exc e) => Q tr (.error e)
  | _, _, .done (.ub _) => True
  | _, _, .done .hang => True
  | tr, Q, .act f k => ∀ w : World σ, A w →
      (f w).2.parent = w.parent ∧ (InInt w.count → InInt (f w).2.count) ∧
      ((∀ b, (f w).1 = .ok b → Wp t A (tr ++ entries t w (f w).2) Q (k (.ok b))) ∧
       (∀ e, (f w).1 = .exc e → Wp t A (tr ++ entries t w (f w).2) Q (k (.error e))))

variable {t : Chan} {A : World σ → Prop} {α β : Type}

theorem Wp.mono {tr : List Act} {Q Q' : List Act → Except Exc α → Prop} {m : K (World σ) α}
    (h : Wp t A tr Q m) (hQ : ∀ tr r, Q tr r → Q' tr r) : Wp t A tr Q' m := by
  induction m generalizing tr with
  | done r => cases r <;> simp only [Wp] at h ⊢ <;> exact hQ _ _ h
  | act f k ih =>
    intro w hw
    obtain ⟨h1, h2, h3, h4⟩ := h w hw
    exact ⟨h1, h2, fun b hb => ih _ (h3 b hb), fun e he => ih _ (h4 e he)⟩

theorem Wp.bind {tr : List Act} {Q : List Act → Except Exc β → Prop} {m : K (World σ) α} {g : α → K (World σ) β}
    (h : Wp t A tr (fun tr' r => match r with
      | .ok a => Wp t A tr' Q (g a)
      | .error e => Q tr' (.error e)) m) : Wp t A tr Q (m >>= g) := by
  show Wp t A tr Q (m.bind g)
  induction m generalizing tr with
  | done r => cases r <;> exact h
  | act f k ih =>
    intro w hw
    obtain ⟨h1, h2, h3, h4⟩ := h w hw
    exact ⟨h1, h2, fun b hb => ih _ (h3 b hb), fun e he => ih _ (h4 e he)⟩

theorem Wp.attempt {tr : List Act} {Q : List Act → Except Exc (Except Exc α) → Prop} {m : K (World σ) α}
    (h : Wp t A tr (fun tr' r => Q tr' (.ok r)) m) : Wp t A tr Q m.attempt := by
  induction m generalizing tr with
  | done r => cases r <;> exact h
  | act f k ih =>
    intro w hw
    obtain ⟨h1, h2, h3, h4⟩ := h w hw
    exact ⟨h1, h2, fun b hb => ih _ (h3 b hb), fun e he => ih _ (h4 e he)⟩

theorem Wp.ofRes {tr : List Act} {Q : List Act → Except Exc α → Prop} {r : Res α}
    (h1 : ∀ a, r = .ok a → Q tr (.ok a)) (h2 : ∀ e, r = .exc e → Q tr (.error e)) :
    Wp t A tr Q (K.ofRes r : K (World σ) α) := by
  cases r with
  | ok a => exact h1 a rfl
  | exc e => exact h2 e rfl
  | ub _ => trivial
  | hang => trivial

/-- An access that changes neither parents nor queue and causes no event. -/
theorem Wp.lift {tr : List Act} {Q : List Act → Except Exc α → Prop} {f : World σ → Res α × World σ}
    (h1 : ∀ w, (f w).2.parent = w.parent) (h2 : ∀ w, (f w).2.out = w.out) (h3 : ∀ w, (f w).2.shellQ = w.shellQ)
    (h4 : ∀ w, InInt w.count → InInt (f w).2.count)
    (hQ : ∀ w a, A w → (f w).1 = .ok a → Q tr (.ok a)) (hE : ∀ w e, A w → (f w).1 = .exc e → Q tr (.error e)) :
    Wp t A tr Q (K.lift f) := by
  intro w hw
  rw [entries_silent t (h2 w) (h3 w), List.append_nil]
  exact ⟨h1 w, h4 w, fun b hb => hQ w b hw hb, fun e he => hE w e hw he⟩

theorem Wp.emit {tr : List Act} {Q : List Act → Except Exc Unit → Prop} {e : Ev}
    (hQ : Q (tr ++ [.did t e]) (.ok ())) : Wp t A tr Q (emit e : K (World σ) Unit) := by
  intro w hw
  have h : entries t w { w with out := w.out ++ [e] } = [.did t e] :=
    entries_out t (w' := { w with out := w.out ++ [e] }) (es := [e]) rfl rfl
  exact ⟨rfl, fun h => h, fun _ _ => by rw [h]; exact hQ, fun _ h => by cases h⟩

theorem Wp.step {tr : List Act} {Q : List Act → Except Exc α → Prop} {m m' : K (World σ) α} {w w' : World σ}
    (h : Wp t A tr Q m) (hw : A w) (hs : m.step w = some (m', w')) :
    w'.parent = w.parent ∧ (InInt w.count → InInt w'.count) ∧ Wp t A (tr ++ entries t w w') Q m' := by
  cases m with
  | done r => cases hs
  | act f k =>
    obtain ⟨h1, h2, h3, h4⟩ := h w hw
    simp only [K.step, Option.some.injEq] at hs
    rcases hf : f w with ⟨r, w₁⟩
    rw [hf] at hs h1 h2 h3 h4
    cases r with
    | ok b => simp only [Prod.mk.injEq] at hs; obtain ⟨rfl, rfl⟩ := hs; exact ⟨h1, h2, h3 b rfl⟩
    | exc e => simp only [Prod.mk.injEq] at hs; obtain ⟨rfl, rfl⟩ := hs; exact ⟨h1, h2, h4 e rfl⟩
    | ub _ => simp only [Prod.mk.injEq] at hs; obtain ⟨rfl, rfl⟩ := hs; exact ⟨h1, h2, trivial⟩
    | hang => simp only [Prod.mk.injEq] at hs; obtain ⟨rfl, rfl⟩ := hs; exact ⟨h1, h2, trivial⟩

/-! ## Programs that send no replies -/

/-- The program takes nothing from the queue and sends no reply; `R` holds for what it does and for its result. -/
def Mute (t : Chan) (A : World σ → Prop) (R : List Ev → Except Exc α → Prop) (m : K (World σ) α) : Prop :=
  ∀ tr, Wp t A tr (fun tr' r => ∃ es, tr' = tr ++ es.map (.did t) ∧ repliesIn es = [] ∧ R es r) m

theorem Mute.mono {R R' : List Ev → Except Exc α → Prop} {m : K (World σ) α} (h : Mute t A R m)
    (hR : ∀ es r, R es r → R' es r) : Mute t A R' m := by
  intro tr
  refine (h tr).mono ?_
  rintro tr' r ⟨es, h1, h2, h3⟩
  exact ⟨es, h1, h2, hR _ _ h3⟩

theorem Mute.bind {R : List Ev → Except Exc α → Prop} {S : List Ev → Except Exc β → Prop} {m : K (World σ) α}
    {g : α → K (World σ) β} (h : Mute t A R m) (he : ∀ es e, R es (.error e) → S es (.error e))
    (hg : ∀ es a, R es (.ok a) → Mute t A (fun es' r => S (es ++ es') r) (g a)) : Mute t A S (m >>= g) := by
  intro tr
  refine Wp.bind ((h tr).mono ?_)
  rintro tr' r ⟨es, rfl, h2, h3⟩
  cases r with
  | error e => exact ⟨es, rfl, h2, he _ _ h3⟩
  | ok a =>
    refine (hg es a h3 _).mono ?_
    rintro tr'' r ⟨es', rfl, h4, h5⟩
    exact ⟨es ++ es', by simp, by rw [repliesIn_app, h2, h4]; rfl, h5⟩

theorem Mute.attempt {R : List Ev → Except Exc (Except Exc α) → Prop} {m : K (World σ) α}
    (h : Mute t A (fun es r => R es (.ok r)) m) : Mute t A R m.attempt := fun tr => Wp.attempt (h tr)

theorem Mute.ofRes {R : List Ev → Except Exc α → Prop} {r : Res α} (h1 : ∀ a, r = .ok a → R [] (.ok a))
    (h2 : ∀ e, r = .exc e → R [] (.error e)) : Mute t A R (K.ofRes r : K (World σ) α) :=
  fun tr => Wp.ofRes (fun a h => ⟨[], by simp, rfl, h1 a h⟩) fun e h => ⟨[], by simp, rfl, h2 e h⟩

theorem Mute.pure {R : List Ev → Except Exc α → Prop} {a : α} (h : R [] (.ok a)) :
    Mute t A R (Pure.pure a : K (World σ) α) := fun tr => ⟨[], by simp, rfl, h⟩

theorem Mute.throw {R : List Ev → Except Exc α → Prop} {e : Exc} (h : R [] (.error e)) :
    Mute t A R (K.throw e : K (World σ) α) := fun tr => ⟨[], by simp, rfl, h⟩

theorem Mute.lift {R : List Ev → Except Exc α → Prop} {f : World σ → Res α × World σ}
    (h1 : ∀ w, (f w).2.parent = w.parent) (h2 : ∀ w, (f w).2.out = w.out) (h3 : ∀ w, (f w).2.shellQ = w.shellQ)
    (h4 : ∀ w, InInt w.count → InInt (f w).2.count)
    (hQ : ∀ w a, A w → (f w).1 = .ok a → R [] (.ok a)) (hE : ∀ w e, A w → (f w).1 = .exc e → R [] (.error e)) :
    Mute t A R (K.lift f) :=
  fun tr => Wp.lift h1 h2 h3 h4 (fun w a hw h => ⟨[], by simp, rfl, hQ w a hw h⟩)
    fun w e hw h => ⟨[], by simp, rfl, hE w e hw h⟩

theorem Mute.read {R : List Ev → Except Exc α → Prop} {f : World σ → α} (hQ : ∀ w, A w → R [] (.ok (f w))) :
    Mute t A R (K.read f) :=
  Mute.lift (fun _ => rfl) (fun _ => rfl) (fun _ => rfl) (fun _ h => h) (fun w a hw h => by cases h; exact hQ w hw)
    fun _ _ _ h => by cases h

theorem Mute.readR {R : List Ev → Except Exc α → Prop} {f : World σ → Res α} (hQ : ∀ w a, A w → f w = .ok a → R [] (.ok a))
    (hE : ∀ w e, A w → f w = .exc e → R [] (.error e)) : Mute t A R (K.readR f) :=
  Mute.lift (fun _ => rfl) (fun _ => rfl) (fun _ => rfl) (fun _ h => h) hQ hE

theorem Mute.emit {R : List Ev → Except Exc Unit → Prop} {e : Ev} (hr : repliesIn [e] = []) (h : R [e] (.ok ())) :
    Mute t A R (emit e : K (World σ) Unit) := fun tr => Wp.emit ⟨[e], by simp, hr, h⟩

/-- Nothing to say about the result. -/
def Mutes (t : Chan) (A : World σ → Prop) (m : K (World σ) α) : Prop := Mute t A (fun _ _ => True) m

theorem Mutes.bind {m : K (World σ) α} {g : α → K (World σ) β} (h : Mutes t A m) (hg : ∀ a, Mutes t A (g a)) :
    Mutes t A (m >>= g) := Mute.bind h (fun _ _ _ => trivial) fun _ a _ => hg a

theorem Mutes.attempt {m : K (World σ) α} (h : Mutes t A m) : Mutes t A m.attempt := Mute.attempt h

theorem Mutes.catchStd {m : K (World σ) α} {g : Exc → K (World σ) α} (h : Mutes t A m) (hg : ∀ e, Mutes t A (g e)) :
    Mutes t A (K.catchStd m g) := by
  refine Mutes.bind h.attempt fun r => ?_
  cases r with
  | ok a => exact Mute.pure trivial
  | error e =>
    show Mutes t A (if e.isStd then g e else K.throw e)
    split
    · exact hg e
    · exact Mute.throw trivial

theorem Mutes.ofRes (r : Res α) : Mutes t A (K.ofRes r : K (World σ) α) := Mute.ofRes (fun _ _ => trivial) fun _ _ => trivial

theorem Mutes.pure (a : α) : Mutes t A (Pure.pure a : K (World σ) α) := Mute.pure trivial

theorem Mutes.throw (e : Exc) : Mutes t A (K.throw e : K (World σ) α) := Mute.throw trivial

theorem Mutes.lift {f : World σ → Res α × World σ} (h1 : ∀ w, (f w).2.parent = w.parent) (h2 : ∀ w, (f w).2.out = w.out)
    (h3 : ∀ w, (f w).2.shellQ = w.shellQ) (h4 : ∀ w, InInt w.count → InInt (f w).2.count) : Mutes t A (K.lift f) :=
  Mute.lift h1 h2 h3 h4 (fun _ _ _ _ => trivial) fun _ _ _ _ => trivial

theorem Mutes.read (f : World σ → α) : Mutes t A (K.read f) := Mute.read fun _ _ => trivial

theorem Mutes.readR (f : World σ → Res α) : Mutes t A (K.readR f) := Mute.readR (fun _ _ _ _ => trivial) fun _ _ _ _ => trivial

theorem Mutes.modify {f : World σ → World σ} (h1 : ∀ w, (f w).parent = w.parent) (h2 : ∀ w, (f w).out = w.out)
    (h3 : ∀ w, (f w).shellQ = w.shellQ) (h4 : ∀ w, InInt w.count → InInt (f w).count) : Mutes t A (K.modify f) :=
  Mutes.lift h1 h2 h3 h4

theorem Mutes.emit {e : Ev} (hr : repliesIn [e] = []) : Mutes t A (emit e : K (World σ) Unit) := Mute.emit hr trivial

/-! ## User code -/

variable {env : Env}

theorem mutes_freshGuid : Mutes t A (freshGuid env : K (World σ) Str) :=
  Mutes.lift (fun _ => rfl) (fun _ => rfl) (fun _ => rfl) fun _ h => h

theorem mutes_isoNow : Mutes t A (isoNow env : K (World σ) Str) :=
  Mutes.lift (fun _ => rfl) (fun _ => rfl) (fun _ => rfl) fun _ h => h

theorem mutes_makeHeader (type : Str) : Mutes t A (makeHeader env type : K (World σ) Json) :=
  mutes_freshGuid.bind fun _ => mutes_isoNow.bind fun _ => Mutes.pure _

theorem mutes_publish (type : Str) (md ct : Json) (bufs : List Frame) (c : Chan) :
    Mutes t A (publishMessage env type md ct bufs c : K (World σ) Unit) :=
  (mutes_makeHeader type).bind fun _ => (Mutes.read _).bind fun _ => (Mutes.ofRes _).bind fun _ =>
    (Mutes.ofRes _).bind fun _ => Mutes.emit rfl

theorem mutes_dispatchStdin (wire : Multipart) : Mutes t A (dispatchStdin env wire : K (World σ) Unit) :=
  Mutes.catchStd ((Mutes.ofRes _).bind fun _ => (Mutes.ofRes _).bind fun _ => (Mutes.ofRes _).bind fun _ =>
    Mutes.modify (fun _ => rfl) (fun _ => rfl) (fun _ => rfl) fun _ h => h) fun _ => Mutes.pure _

theorem mutes_recvStdin : Mutes t A (recvStdin : K (World σ) Multipart) := by
  refine Mutes.lift ?_ ?_ ?_ ?_ <;> intro w
  · split <;> rfl
  · split <;> rfl
  · split <;> rfl
  · split <;> exact fun h => h

theorem mutes_sendStdin (type : Str) (md ct : Json) : Mutes t A (sendStdin env type md ct : K (World σ) Unit) :=
  (Mutes.read _).bind fun _ => (mutes_makeHeader type).bind fun _ => (Mutes.read _).bind fun _ => (Mutes.ofRes _).bind fun _ =>
    (Mutes.ofRes _).bind fun _ => (Mutes.emit rfl).bind fun _ => mutes_recvStdin.bind fun _ => mutes_dispatchStdin _

theorem mutes_blockingInput (prompt : Str) (pwd : Bool) : Mutes t A (blockingInput env prompt pwd : K (World σ) Str) :=
  (Mutes.modify (fun _ => rfl) (fun _ => rfl) (fun _ => rfl) fun _ h => h).bind fun _ =>
    (mutes_sendStdin _ _ _).bind fun _ => (Mutes.read _).bind fun _ =>
    (Mutes.modify (fun _ => rfl) (fun _ => rfl) (fun _ => rfl) fun _ h => h).bind fun _ => Mutes.pure _

theorem mutes_onComms (act : CommAct) (f : Comms → Res (α × Comms)) : Mutes t A (onComms act f : K (World σ) α) := by
  refine Mutes.lift ?_ ?_ ?_ ?_ <;> intro w
  · split <;> rfl
  · split <;> rfl
  · split <;> rfl
  · split <;> exact fun h => h

theorem mutes_op (o : Op) : Mutes t A (o.sem env : K (World σ) Val) := by
  cases o with
  | pub q => exact (mutes_publish _ _ _ _ _).bind fun _ => Mutes.pure _
  | input pr pw => exact (mutes_blockingInput pr pw).bind fun _ => Mutes.pure _
  | parentHeader => exact (Mutes.read _).bind fun _ => Mutes.pure _
  | history q => exact (Mutes.readR _).bind fun _ => Mutes.pure _
  | comm o =>
    refine Mutes.bind ?_ fun g => mutes_onComms _ _
    unfold commGuid
    split
    · exact mutes_freshGuid
    · exact Mutes.pure _
  | commSend k a md d bufs => exact (Mutes.readR _).bind fun _ => (mutes_publish _ _ _ _ _).bind fun _ => Mutes.pure _

theorem mute_exec {Ω : Type} {sem : Ω → K (World σ) Val} (hs : ∀ o, Mutes t A (sem o)) {P : α → Prop} {q : Prog σ Ω α}
    (hq : Yields P q) : Mute t A (fun _ r => ∀ a, r = .ok a → P a) (q.exec sem) := by
  induction q with
  | ret a => exact Mute.pure fun _ h => by cases h; exact hq
  | throw e => exact Mute.throw fun _ h => by cases h
  | ub w => exact Mute.ofRes (fun _ h => by cases h) fun _ h => by cases h
  | hang => exact Mute.ofRes (fun _ h => by cases h) fun _ h => by cases h
  | get k ih => exact Mute.bind (Mutes.read _) (fun _ _ _ _ h => by cases h) fun _ a _ => ih a (hq a)
  | set s k ih =>
    exact Mute.bind (Mutes.modify (fun _ => rfl) (fun _ => rfl) (fun _ => rfl) fun _ h => h) (fun _ _ _ _ h => by cases h)
      fun _ a _ => ih hq
  | call o k ih => exact Mute.bind (hs o).attempt (fun _ _ _ _ h => by cases h) fun _ a _ => ih a (hq a)

theorem yields_true {Ω : Type} (q : Prog σ Ω α) : Yields (fun _ => True) q := by
  induction q with
  | get k ih => exact fun s => ih s
  | set s k ih => exact ih
  | call o k ih => exact fun r => ih r
  | _ => trivial

theorem mutes_exec {Ω : Type} {sem : Ω → K (World σ) Val} (hs : ∀ o, Mutes t A (sem o)) (q : Prog σ Ω α) :
    Mutes t A (q.exec sem) := (mute_exec hs (yields_true q)).mono fun _ _ _ => trivial

theorem mutes_dop (I : Interp σ) (o : DOp) : Mutes t A (o.sem env I) := by
  cases o with
  | base o => exact mutes_op o
  | toShell j =>
    refine Mutes.bind ?_ fun _ => Mutes.pure _
    refine Mutes.bind (Mutes.ofRes _) fun _ => ?_
    refine Mutes.bind ?_ fun _ => Mutes.ofRes _
    refine Mutes.bind (Mutes.ofRes _) fun _ => ?_
    exact Mutes.bind (mutes_exec mutes_op _) fun _ => Mutes.ofRes _

/-- A call of user code returns an answer as expected or throws. -/
theorem mute_userCall {Ω : Type} {sem : Ω → K (World σ) Val} (hs : ∀ o, Mutes t A (sem o)) {P : α → Prop} (k : Call)
    {q : Prog σ Ω α} (hq : Yields P q) :
    Mute t A (fun es r => (∀ a, r = .ok a → P a) ∧ ∀ e, r = .error e → ∃ x, Ev.threw x ∈ es) (userCall sem k q) := by
  refine Mute.bind (R := fun _ r => r = .ok ()) (Mute.emit rfl rfl) (fun es e h => by cases h) fun es _ _ => ?_
  refine Mute.bind (R := fun _ r => ∃ x, r = .ok x ∧ ∀ a, x = .ok a → P a) (Mute.attempt ((mute_exec hs hq).mono
    fun _ r h => ⟨r, rfl, h⟩)) (fun _ _ h => by obtain ⟨_, h, _⟩ := h; cases h) fun es' x hx => ?_
  obtain ⟨x', hx, hP⟩ := hx
  cases hx
  cases x with
  | ok a => exact Mute.pure ⟨fun _ h => by cases h; exact hP a rfl, fun _ h => by cases h⟩
  | error e =>
    refine Mute.bind (R := fun es r => es = [.threw e] ∧ r = .ok ()) (Mute.emit rfl ⟨rfl, rfl⟩) (fun _ _ h => by cases h.2)
      fun es'' _ h => ?_
    obtain ⟨rfl, _⟩ := h
    exact Mute.throw ⟨fun _ h => (by cases h), fun _ _ => ⟨e, by simp⟩⟩

end Xeus
