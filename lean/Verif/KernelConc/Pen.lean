import Verif.Server.TranscriptSpec
import Verif.KernelConc.Invariant
import Verif.Kernel.Runs
import Verif.Kernel.Dispatch
import Verif.Kernel.Handlers

/-!
# The history under interference: lemmas (no property statements here)
-/

namespace Xeus

open Spec K

variable {σ α β : Type} {env : Env} {I : Interp σ}

/-- A program that has done `es` and written `d` to the history, whatever others do between its steps: `V` holds of both after each
step, and `Q` at the end. -/
def Pen (V : List Ev → Hist → Prop) {α : Type} : List Ev → Hist → (List Ev → Hist → Except Exc α → Prop) → K (World σ) α → Prop
  | es, d, Q, .done (.ok a) => Q es d (.ok a)
  | es, d, Q, .done (.exc e) => Q es d (.error e)
  | _, _, _, .done (.ub _) => True
  | _, _, _, .done .hang => True
  | es, d, Q, .act f k => ∀ w : World σ, ∃ es' d', (f w).2.out = w.out ++ es' ∧ (f w).2.hist = w.hist ++ d' ∧
      V (es ++ es') (d ++ d') ∧
      ((∀ b, (f w).1 = .ok b → Pen V (es ++ es') (d ++ d') Q (k (.ok b))) ∧
       (∀ e, (f w).1 = .exc e → Pen V (es ++ es') (d ++ d') Q (k (.error e))))

namespace Pen

variable {V : List Ev → Hist → Prop} {es : List Ev} {d : Hist}

theorem mono {Q Q' : List Ev → Hist → Except Exc α → Prop} {V' : List Ev → Hist → Prop} {m : K (World σ) α} (h : Pen V es d Q m)
    (hV : ∀ es d, V es d → V' es d) (hQ : ∀ es d r, Q es d r → Q' es d r) : Pen V' es d Q' m := by
  induction m generalizing es d with
  | done r => cases r <;> simp only [Pen] at h ⊢ <;> exact hQ _ _ _ h
  | act f k ih =>
    intro w
    obtain ⟨es', d', h1, h2, h3, h4, h5⟩ := h w
    exact ⟨es', d', h1, h2, hV _ _ h3, fun b hb => ih _ (h4 b hb), fun e he => ih _ (h5 e he)⟩

theorem bind {Q : List Ev → Hist → Except Exc β → Prop} {m : K (World σ) α} {g : α → K (World σ) β}
    (h : Pen V es d (fun es' d' r => match r with
      | .ok a => Pen V es' d' Q (g a)
      | .error e => Q es' d' (.error e)) m) : Pen V es d Q (m >>= g) := by
  show Pen V es d Q (m.bind g)
  induction m generalizing es d with
  | done r => cases r <;> exact h
  | act f k ih =>
    intro w
    obtain ⟨es', d', h1, h2, h3, h4, h5⟩ := h w
    exact ⟨es', d', h1, h2, h3, fun b hb => ih _ (h4 b hb), fun e he => ih _ (h5 e he)⟩

theorem attempt {Q : List Ev → Hist → Except Exc (Except Exc α) → Prop} {m : K (World σ) α}
    (h : Pen V es d (fun es' d' r => Q es' d' (.ok r)) m) : Pen V es d Q m.attempt := by
  induction m generalizing es d with
  | done r => cases r <;> exact h
  | act f k ih =>
    intro w
    obtain ⟨es', d', h1, h2, h3, h4, h5⟩ := h w
    exact ⟨es', d', h1, h2, h3, fun b hb => ih _ (h4 b hb), fun e he => ih _ (h5 e he)⟩

theorem catchStd {Q : List Ev → Hist → Except Exc α → Prop} {m : K (World σ) α} {g : Exc → K (World σ) α}
    (h : Pen V es d (fun es' d' r => match r with
      | .ok a => Q es' d' (.ok a)
      | .error e => if e.isStd then Pen V es' d' Q (g e) else Q es' d' (.error e)) m) :
    Pen V es d Q (K.catchStd m g) := by
  refine Pen.bind (Pen.attempt (h.mono (fun _ _ h => h) ?_))
  intro es' d' r hr
  cases r with
  | ok a => exact hr
  | error e =>
    simp only at hr ⊢
    split
    · rename_i h; rw [if_pos h] at hr; exact hr
    · rename_i h; rw [if_neg h] at hr; exact hr

theorem step {Q : List Ev → Hist → Except Exc α → Prop} {m m' : K (World σ) α} {w w' : World σ} (h : Pen V es d Q m)
    (hs : m.step w = some (m', w')) :
    ∃ es' d', w'.out = w.out ++ es' ∧ w'.hist = w.hist ++ d' ∧ V (es ++ es') (d ++ d') ∧ Pen V (es ++ es') (d ++ d') Q m' := by
  cases m with
  | done r => cases hs
  | act f k =>
    obtain ⟨es', d', h1, h2, h3, h4, h5⟩ := h w
    simp only [K.step, Option.some.injEq] at hs
    rcases hf : f w with ⟨r, w₁⟩
    rw [hf] at hs h1 h2 h4 h5
    refine ⟨es', d', ?_⟩
    cases r with
    | ok b => simp only [Prod.mk.injEq] at hs; obtain ⟨rfl, rfl⟩ := hs; exact ⟨h1, h2, h3, h4 b rfl⟩
    | exc e => simp only [Prod.mk.injEq] at hs; obtain ⟨rfl, rfl⟩ := hs; exact ⟨h1, h2, h3, h5 e rfl⟩
    | ub _ => simp only [Prod.mk.injEq] at hs; obtain ⟨rfl, rfl⟩ := hs; exact ⟨h1, h2, h3, trivial⟩
    | hang => simp only [Prod.mk.injEq] at hs; obtain ⟨rfl, rfl⟩ := hs; exact ⟨h1, h2, h3, trivial⟩

end Pen

/-! ## Programs that write nothing to the history -/

/-- The events are allowed: no replies unless `r`. -/
def Fit (r : Bool) (es : List Ev) : Prop := r = false → repliesIn es = []

theorem Fit.append {r : Bool} {a b : List Ev} (ha : Fit r a) (hb : Fit r b) : Fit r (a ++ b) := fun h => by
  rw [repliesIn_app, ha h, hb h]; rfl

theorem Fit.nil {r : Bool} : Fit r [] := fun _ => rfl

/-- The program writes nothing to the history, and replies only if `r`. -/
def Unwritten (r : Bool) (m : K (World σ) α) : Prop :=
  ∀ (V : List Ev → Hist → Prop) (es : List Ev) (d : Hist), (∀ es', Fit r es' → V (es ++ es') d) →
    Pen V es d (fun es₁ d₁ _ => d₁ = d ∧ ∃ es', es₁ = es ++ es' ∧ Fit r es') m

namespace Unwritten

variable {r : Bool}

theorem pure (a : α) : Unwritten r (Pure.pure a : K (World σ) α) := fun _ es _ _ => ⟨rfl, [], by simp, Fit.nil⟩

theorem throw (e : Exc) : Unwritten r (K.throw e : K (World σ) α) := fun _ es _ _ => ⟨rfl, [], by simp, Fit.nil⟩

theorem ofRes (x : Res α) : Unwritten r (K.ofRes x : K (World σ) α) := fun _ es _ _ => by
  cases x <;> first | exact ⟨rfl, [], by simp, Fit.nil⟩ | trivial

theorem lift {f : World σ → Res α × World σ} (h1 : ∀ w, (f w).2.out = w.out) (h2 : ∀ w, (f w).2.hist = w.hist) : Unwritten r (K.lift f) := by
  intro V es d hV w
  exact ⟨[], [], by simp [h1], by simp [h2], by simpa using hV [] Fit.nil,
    fun _ _ => ⟨by simp, [], by simp, Fit.nil⟩, fun _ _ => ⟨by simp, [], by simp, Fit.nil⟩⟩

theorem read (f : World σ → α) : Unwritten r (K.read f) := lift (fun _ => rfl) fun _ => rfl

theorem readR (f : World σ → Res α) : Unwritten r (K.readR f) := lift (fun _ => rfl) fun _ => rfl

theorem modify {f : World σ → World σ} (h1 : ∀ w, (f w).out = w.out) (h2 : ∀ w, (f w).hist = w.hist) : Unwritten r (K.modify f) :=
  lift h1 h2

theorem emit {e : Ev} (h : Fit r [e]) : Unwritten r (Xeus.emit e : K (World σ) Unit) := by
  intro V es d hV w
  exact ⟨[e], [], rfl, (List.append_nil _).symm, by simpa using hV [e] h, fun _ _ => ⟨by simp, [e], rfl, h⟩, fun _ hx => by cases hx⟩

theorem bind {m : K (World σ) α} {g : α → K (World σ) β} (h : Unwritten r m) (hg : ∀ a, Unwritten r (g a)) : Unwritten r (m >>= g) := by
  intro V es d hV
  refine Pen.bind ((h V es d hV).mono (fun _ _ h => h) ?_)
  rintro es₁ d₁ x ⟨rfl, es', rfl, hf⟩
  cases x with
  | error e => exact ⟨rfl, es', rfl, hf⟩
  | ok a =>
    refine (hg a V _ _ fun es'' h'' => ?_).mono (fun _ _ h => h) ?_
    · rw [List.append_assoc]; exact hV _ (hf.append h'')
    · rintro es₂ d₂ x ⟨rfl, es'', rfl, hf'⟩
      exact ⟨rfl, es' ++ es'', by simp, hf.append hf'⟩

theorem attempt {m : K (World σ) α} (h : Unwritten r m) : Unwritten r m.attempt := fun V es d hV => Pen.attempt (h V es d hV)

theorem catchStd {m : K (World σ) α} {g : Exc → K (World σ) α} (h : Unwritten r m) (hg : ∀ e, Unwritten r (g e)) : Unwritten r (m.catchStd g) := by
  refine bind h.attempt fun x => ?_
  cases x with
  | ok a => exact pure a
  | error e =>
    simp only
    split
    · exact hg e
    · exact throw e

theorem weaken {m : K (World σ) α} (h : Unwritten false m) : Unwritten r m := by
  intro V es d hV
  refine (h V es d fun es' hf => hV es' fun _ => hf rfl).mono (fun _ _ h => h) ?_
  rintro es₁ d₁ x ⟨rfl, es', rfl, hf⟩
  exact ⟨rfl, es', rfl, fun _ => hf rfl⟩

end Unwritten

variable {r : Bool}

theorem fit_other {e : Ev} (h : ∀ c m w, e ≠ .reply c m w) : Fit r [e] := fun _ => by
  cases e with
  | reply c m w => exact absurd rfl (h c m w)
  | _ => rfl

theorem unwritten_makeHeader (type : Str) : Unwritten r (makeHeader (σ := σ) env type) :=
  Unwritten.bind (Unwritten.lift (fun _ => rfl) fun _ => rfl) fun _ => Unwritten.bind (Unwritten.lift (fun _ => rfl) fun _ => rfl) fun _ => Unwritten.pure _

theorem unwritten_publish (type : Str) (md ct : Json) (bufs : List Frame) (c : Chan) :
    Unwritten r (publishMessage (σ := σ) env type md ct bufs c) :=
  Unwritten.bind (unwritten_makeHeader _) fun _ => Unwritten.bind (Unwritten.read _) fun _ => Unwritten.bind (Unwritten.ofRes _) fun _ =>
    Unwritten.bind (Unwritten.ofRes _) fun _ => Unwritten.emit (fit_other (by simp))

theorem unwritten_sendReplyTo (ids : List Str) (type : Str) (parent md ct : Json) (c : Chan) :
    Unwritten true (sendReplyTo (σ := σ) env ids type parent md ct c) :=
  Unwritten.bind (unwritten_makeHeader _) fun _ => Unwritten.bind (Unwritten.ofRes _) fun _ => Unwritten.bind (Unwritten.ofRes _) fun _ =>
    Unwritten.emit (fun h => by cases h)

theorem unwritten_sendReply (type : Str) (md ct : Json) (c : Chan) : Unwritten true (sendReply (σ := σ) env type md ct c) :=
  Unwritten.bind (Unwritten.read _) fun _ => Unwritten.bind (Unwritten.read _) fun _ => unwritten_sendReplyTo _ _ _ _ _ _

theorem unwritten_input (prompt : Str) (pwd : Bool) : Unwritten r (blockingInput (σ := σ) env prompt pwd) := by
  refine Unwritten.bind (Unwritten.modify (fun _ => rfl) fun _ => rfl) fun _ => Unwritten.bind ?_ fun _ => Unwritten.bind (Unwritten.read _) fun _ =>
    Unwritten.bind (Unwritten.modify (fun _ => rfl) fun _ => rfl) fun _ => Unwritten.pure _
  refine Unwritten.bind (Unwritten.read _) fun _ => Unwritten.bind (unwritten_makeHeader _) fun _ => Unwritten.bind (Unwritten.read _) fun _ =>
    Unwritten.bind (Unwritten.ofRes _) fun _ => Unwritten.bind (Unwritten.ofRes _) fun _ => Unwritten.bind (Unwritten.emit (fit_other (by simp))) fun _ =>
    Unwritten.bind (Unwritten.lift ?_ ?_) fun _ => Unwritten.catchStd ?_ fun _ => Unwritten.pure _
  · intro w; split <;> rfl
  · intro w; split <;> rfl
  · exact Unwritten.bind (Unwritten.ofRes _) fun _ => Unwritten.bind (Unwritten.ofRes _) fun _ => Unwritten.bind (Unwritten.ofRes _) fun _ =>
      Unwritten.modify (fun _ => rfl) fun _ => rfl

theorem unwritten_onComms (act : CommAct) (f : Comms → Res (α × Comms)) : Unwritten r (onComms (σ := σ) act f) := by
  refine Unwritten.lift ?_ ?_ <;> intro w <;> split <;> rfl

theorem unwritten_op (o : Op) : Unwritten r (o.sem (σ := σ) env) := by
  cases o with
  | pub q => exact Unwritten.bind (unwritten_publish _ _ _ _ _) fun _ => Unwritten.pure _
  | input pr pw => exact Unwritten.bind (unwritten_input pr pw) fun _ => Unwritten.pure _
  | parentHeader => exact Unwritten.bind (Unwritten.read _) fun _ => Unwritten.pure _
  | history q => exact Unwritten.bind (Unwritten.readR _) fun _ => Unwritten.pure _
  | comm o =>
    refine Unwritten.bind ?_ fun g => unwritten_onComms _ _
    unfold commGuid
    split
    · exact Unwritten.lift (fun _ => rfl) fun _ => rfl
    · exact Unwritten.pure _
  | commSend k a md d bufs => exact Unwritten.bind (Unwritten.readR _) fun _ => Unwritten.bind (unwritten_publish _ _ _ _ _) fun _ => Unwritten.pure _

theorem unwritten_exec {Ω : Type} {sem : Ω → K (World σ) Val} (hs : ∀ o, Unwritten r (sem o)) (q : Prog σ Ω α) : Unwritten r (q.exec sem) := by
  induction q with
  | ret a => exact Unwritten.pure _
  | throw e => exact Unwritten.throw _
  | ub w => exact Unwritten.ofRes _
  | hang => exact Unwritten.ofRes _
  | get k ih => exact Unwritten.bind (Unwritten.read _) ih
  | set s k ih => exact Unwritten.bind (Unwritten.modify (fun _ => rfl) fun _ => rfl) fun _ => ih
  | call o k ih => exact Unwritten.bind (hs o).attempt ih

theorem unwritten_dop (o : DOp) : Unwritten r (o.sem (σ := σ) env I) := by
  cases o with
  | base o => exact unwritten_op o
  | toShell j =>
    refine Unwritten.bind ?_ fun _ => Unwritten.pure _
    refine Unwritten.bind (Unwritten.ofRes _) fun _ => Unwritten.bind ?_ fun _ => Unwritten.ofRes _
    exact Unwritten.bind (Unwritten.ofRes _) fun _ => Unwritten.bind (unwritten_exec unwritten_op _) fun _ => Unwritten.ofRes _

theorem unwritten_userCall {Ω : Type} {sem : Ω → K (World σ) Val} (hs : ∀ o, Unwritten r (sem o)) (k : Call) (q : Prog σ Ω α) :
    Unwritten r (userCall sem k q) := by
  refine Unwritten.bind (Unwritten.emit (fit_other (by simp))) fun _ => Unwritten.bind (unwritten_exec hs q).attempt fun x => ?_
  cases x with
  | ok a => exact Unwritten.pure _
  | error e => exact Unwritten.bind (Unwritten.emit (fit_other (by simp))) fun _ => Unwritten.throw _

theorem unwritten_abortQueue : Unwritten true (abortQueue (σ := σ) env) := by
  have loop : ∀ k, Unwritten true (abortLoop (σ := σ) env k) := by
    intro k
    induction k with
    | zero => exact Unwritten.pure _
    | succ k ih =>
      refine Unwritten.bind (Unwritten.lift ?_ ?_) fun x => ?_
      · intro w; split <;> rfl
      · intro w; split <;> rfl
      · cases x with
        | none => exact Unwritten.pure _
        | some q =>
          refine Unwritten.bind ?_ fun _ => ih
          refine Unwritten.bind (Unwritten.ofRes _).attempt fun y => ?_
          cases y with
          | error e =>
            simp only
            split
            · exact Unwritten.pure _
            · exact Unwritten.throw _
          | ok m => exact Unwritten.bind (Unwritten.ofRes _) fun _ => Unwritten.bind (Unwritten.ofRes _) fun _ => unwritten_sendReplyTo _ _ _ _ _ _
  exact Unwritten.bind (Unwritten.read _) fun _ => loop _

theorem unwritten_runHandler (h : Option Nat) (m : XMessage) : Unwritten r (runHandler (σ := σ) env I h m) := by
  unfold runHandler
  split
  · exact Unwritten.pure _
  · exact unwritten_userCall unwritten_op _ _

theorem unwritten_getMetadata : Unwritten r (getMetadata (σ := σ) env) :=
  Unwritten.bind (Unwritten.lift (fun _ => rfl) fun _ => rfl) fun _ => Unwritten.pure _

/-- Handlers of other requests. -/
theorem unwritten_handle {q : Req} (hq : q ≠ .execute) (m : XMessage) (c : Chan) : Unwritten true (handle env I q m c) := by
  cases q with
  | execute => exact absurd rfl hq
  | complete =>
    exact Unwritten.bind (Unwritten.ofRes _) fun _ => Unwritten.bind (Unwritten.ofRes _) fun _ => Unwritten.bind (unwritten_userCall unwritten_op _ _) fun _ =>
      unwritten_sendReply _ _ _ _
  | inspect =>
    exact Unwritten.bind (Unwritten.ofRes _) fun _ => Unwritten.bind (Unwritten.ofRes _) fun _ => Unwritten.bind (Unwritten.ofRes _) fun _ =>
      Unwritten.bind (unwritten_userCall unwritten_op _ _) fun _ => unwritten_sendReply _ _ _ _
  | history => exact Unwritten.bind (Unwritten.readR _) fun _ => unwritten_sendReply _ _ _ _
  | isComplete => exact Unwritten.bind (Unwritten.ofRes _) fun _ => Unwritten.bind (unwritten_userCall unwritten_op _ _) fun _ => unwritten_sendReply _ _ _ _
  | commInfo => exact Unwritten.bind (Unwritten.ofRes _) fun _ => Unwritten.bind (Unwritten.readR _) fun _ => unwritten_sendReply _ _ _ _
  | commOpen =>
    show Unwritten true (commOpen env I m)
    unfold commOpen
    refine Unwritten.bind (unwritten_onComms _ _) fun x => Unwritten.bind (Unwritten.attempt ?_) fun res => Unwritten.bind (unwritten_onComms _ _) fun _ => ?_
    · split
      · exact Unwritten.throw _
      · exact unwritten_userCall unwritten_op _ _
    · split
      · exact Unwritten.pure _
      · exact Unwritten.throw _
  | commClose =>
    exact Unwritten.bind (Unwritten.readR _) fun _ => Unwritten.bind (unwritten_runHandler _ _) fun _ => Unwritten.modify (fun _ => rfl) fun _ => rfl
  | commMsg => exact Unwritten.bind (Unwritten.readR _) fun _ => unwritten_runHandler _ _
  | kernelInfo => exact Unwritten.bind (unwritten_userCall unwritten_op _ _) fun _ => Unwritten.bind (Unwritten.ofRes _) fun _ => unwritten_sendReply _ _ _ _
  | shutdown =>
    exact Unwritten.bind (Unwritten.ofRes _) fun _ => Unwritten.bind (unwritten_userCall unwritten_op _ _) fun _ =>
      Unwritten.bind (Unwritten.emit (fit_other (by simp))) fun _ => Unwritten.bind (unwritten_publish _ _ _ _ _) fun _ => unwritten_sendReply _ _ _ _
  | interrupt => exact Unwritten.bind (unwritten_publish _ _ _ _ _) fun _ => unwritten_sendReply _ _ _ _
  | debug =>
    show Unwritten true (debugRequest env I m c)
    unfold debugRequest
    split
    · exact Unwritten.pure _
    · exact Unwritten.bind (unwritten_userCall unwritten_dop _ _) fun _ => Unwritten.bind unwritten_getMetadata fun _ => unwritten_sendReply _ _ _ _

/-! ## Execute requests -/

theorem executeBody_none {m : XMessage} {c : Chan} (hf : execFields m.body.content = none) :
    ∃ x : Res Unit, executeBody env I m c = .done x ∧ x ≠ .ok () := by
  unfold execFields at hf
  simp only [executeBody]
  cases ho : m.body.content.isObj with
  | false => rw [value_nonobj ho]; exact ⟨.exc .typeError, rfl, by simp⟩
  | true =>
    rw [if_pos ho] at hf
    cases h1 : strField m.body.content "code" "" with
    | none => rw [show ([] : Str) = lit "" from rfl, strField_none ho h1]; exact ⟨.exc .typeError, rfl, by simp⟩
    | some code =>
    rw [show ([] : Str) = lit "" from rfl, strField_value ho h1]
    cases h2 : boolField m.body.content "silent" false with
    | none => rw [boolField_none ho h2]; exact ⟨.exc .typeError, rfl, by simp⟩
    | some silent =>
    rw [boolField_value ho h2]
    cases h3 : boolField m.body.content "store_history" true with
    | none => rw [boolField_none ho h3]; exact ⟨.exc .typeError, rfl, by simp⟩
    | some store =>
    rw [boolField_value ho h3]
    cases h4 : intField m.body.content "execution_count" 1 with
    | none =>
      by_cases hw : Wild m.body.content "execution_count"
      · rw [(intField_wild ho hw).1]; exact ⟨.ub _, rfl, by simp⟩
      · rw [intField_none ho hw h4]; exact ⟨.exc .typeError, rfl, by simp⟩
    | some line =>
    rw [intField_value ho h4, jsonField_value ho]
    cases h5 : boolField m.body.content "allow_stdin" true with
    | none => rw [boolField_none ho h5]; exact ⟨.exc .typeError, rfl, by simp⟩
    | some allow =>
    rw [boolField_value ho h5]
    cases h6 : boolField m.body.content "stop_on_error" false with
    | none => rw [boolField_none ho h6]; exact ⟨.exc .typeError, rfl, by simp⟩
    | some stop => simp [h1, h2, h3, h4, h5, h6] at hf

theorem executeBody_some {m : XMessage} {c : Chan} {f : ExecFields} (hf : execFields m.body.content = some f) :
    executeBody env I m c = (do
      let metadata ← getMetadata env
      let reply ← interpExecute env I f.code f.silent (f.store && !f.silent) f.exprs f.allow
      let status ← K.ofRes (reply.value (lit "status") Json.getStr (lit "error"))
      sendReply env (lit "execute_reply") metadata reply c
      storeK f.silent (f.store && !f.silent) f.line f.code
      abortK env f.silent status f.stop) := by
  unfold execFields at hf
  simp only [executeBody]
  cases ho : m.body.content.isObj with
  | false => simp [ho] at hf
  | true =>
    rw [if_pos ho] at hf
    simp only [Option.bind_eq_bind, Option.bind_eq_some_iff, Option.pure_def, Option.some.injEq] at hf
    obtain ⟨code, h1, silent, h2, store, h3, line, h4, allow, h5, stop, h6, rfl⟩ := hf
    rw [show ([] : Str) = lit "" from rfl, strField_value ho h1, boolField_value ho h2, boolField_value ho h3, intField_value ho h4,
      jsonField_value ho, boolField_value ho h5, boolField_value ho h6]
    rfl

theorem Unwritten.then {V : List Ev → Hist → Prop} {es : List Ev} {d : Hist} {Q : List Ev → Hist → Except Exc β → Prop} {m : K (World σ) α}
    {g : α → K (World σ) β} (h : Unwritten r m) (hV : ∀ es', Fit r es' → V (es ++ es') d)
    (hg : ∀ a es', Fit r es' → Pen V (es ++ es') d Q (g a)) (hE : ∀ e es', Fit r es' → Q (es ++ es') d (.error e)) :
    Pen V es d Q (m >>= g) := by
  refine Pen.bind ((h V es d hV).mono (fun _ _ h => h) ?_)
  rintro es₁ d₁ x ⟨rfl, es', rfl, hf⟩
  cases x with
  | ok a => exact hg a es' hf
  | error e => exact hE e es' hf

/-- Did the reply go out? -/
def Out {α : Type} (es : List Ev) : Except Exc α → Prop
  | .ok _ => repliesIn es ≠ []
  | .error _ => repliesIn es = []

theorem pen_sendReply {V : List Ev → Hist → Prop} {es : List Ev} {d : Hist} (hV : ∀ es', V (es ++ es') d) (type : Str) (md ct : Json)
    (c : Chan) : Pen V es d (fun es₁ d₁ x => d₁ = d ∧ ∃ es', es₁ = es ++ es' ∧ Out es' x) (sendReply (σ := σ) env type md ct c) := by
  have hx : ∀ {es' : List Ev}, Fit false es' → ∀ es'', V (es ++ es' ++ es'') d := fun _ es'' => by rw [List.append_assoc]; exact hV _
  refine Unwritten.then (r := false) (Unwritten.read _) (fun _ _ => hV _) (fun ids e₁ f₁ => ?_) fun e es' h => ⟨rfl, es', rfl, h rfl⟩
  refine Unwritten.then (r := false) (Unwritten.read _) (fun _ _ => hx f₁ _) (fun parent e₂ f₂ => ?_)
    fun e es' h => ⟨rfl, e₁ ++ es', by simp, (f₁.append h) rfl⟩
  refine Unwritten.then (r := false) (unwritten_makeHeader _) (fun _ _ => by rw [List.append_assoc]; exact hx f₁ _) (fun header e₃ f₃ => ?_)
    fun e es' h => ⟨rfl, e₁ ++ e₂ ++ es', by simp, ((f₁.append f₂).append h) rfl⟩
  refine Unwritten.then (r := false) (Unwritten.ofRes _) (fun _ _ => by rw [List.append_assoc, List.append_assoc]; exact hx f₁ _) (fun _ e₄ f₄ => ?_)
    fun e es' h => ⟨rfl, e₁ ++ e₂ ++ e₃ ++ es', by simp, (((f₁.append f₂).append f₃).append h) rfl⟩
  refine Unwritten.then (r := false) (Unwritten.ofRes _) (fun _ _ => by rw [List.append_assoc, List.append_assoc, List.append_assoc]; exact hx f₁ _)
    (fun wire e₅ f₅ => ?_)
    fun e es' h => ⟨rfl, e₁ ++ e₂ ++ e₃ ++ e₄ ++ es', by simp, ((((f₁.append f₂).append f₃).append f₄).append h) rfl⟩
  intro w
  refine ⟨[_], [], rfl, (List.append_nil _).symm, ?_, fun _ _ => ⟨by simp, e₁ ++ e₂ ++ e₃ ++ e₄ ++ e₅ ++ [_], by simp; rfl, ?_⟩,
    fun _ hx => by cases hx⟩
  · simp only [List.append_assoc, List.append_nil]
    exact hV _
  · show repliesIn _ ≠ []
    rw [repliesIn_app]
    simp [repliesIn]

/-- What an execute request may have written so far. -/
def Noted (m : XMessage) (es : List Ev) (d : Hist) : Prop :=
  d = [] ∨ ∃ e, Storable m e ∧ repliesIn es ≠ [] ∧ d = [e]

/-- What a message has written in the end. -/
def Final (m : XMessage) (es : List Ev) (d : Hist) : Prop :=
  (d = [] ∧ ((∀ e, ¬ Storable m e) ∨ repliesIn es = [])) ∨ ∃ e, Storable m e ∧ repliesIn es ≠ [] ∧ d = [e]

theorem Final.noted {m : XMessage} {es : List Ev} {d : Hist} (h : Final m es d) : Noted m es d := by
  rcases h with ⟨h, _⟩ | h
  · exact .inl h
  · exact .inr h

theorem replies_left {a b : List Ev} (h : repliesIn a ≠ []) : repliesIn (a ++ b) ≠ [] := by
  rw [repliesIn_app]; simp [h]

theorem Final.more {m : XMessage} {es es' : List Ev} {d : Hist} (h : Final m es d) (hf : repliesIn es' = []) : Final m (es ++ es') d := by
  rcases h with ⟨h, h' | h'⟩ | ⟨e, h1, h2, h3⟩
  · exact .inl ⟨h, .inl h'⟩
  · exact .inl ⟨h, .inr (by rw [repliesIn_app, h', hf]; rfl)⟩
  · exact .inr ⟨e, h1, replies_left h2, h3⟩

theorem pen_execute {m : XMessage} (hr : IsReq m .execute) (c : Chan) {es : List Ev} (he : repliesIn es = []) :
    Pen (Noted m) es [] (fun es' d _ => Final m es' d) (executeRequest env I m c) := by
  refine Pen.catchStd ?_
  suffices h : Pen (Noted m) es [] (fun es' d _ => Final m es' d) (executeBody env I m c) by
    refine h.mono (fun _ _ h => h) fun es' d x hx => ?_
    cases x with
    | ok a => exact hx
    | error e => show ite _ _ _; split <;> exact hx
  cases hf : execFields m.body.content with
  | none =>
    obtain ⟨x, h1, h2⟩ := executeBody_none (env := env) (I := I) (c := c) hf
    rw [h1]
    cases x with
    | ok _ => exact absurd rfl h2
    | exc e => exact .inl ⟨rfl, .inr he⟩
    | _ => trivial
  | some f =>
    rw [executeBody_some hf]
    have fin : ∀ es', Fit false es' → Final m (es ++ es') [] := fun es' h => .inl ⟨rfl, .inr (by rw [repliesIn_app, he, h rfl]; rfl)⟩
    have nil : ∀ es', Noted m es' [] := fun _ => .inl rfl
    refine Unwritten.then (r := false) unwritten_getMetadata (fun _ _ => nil _) (fun md e₁ f₁ => ?_) fun e es' h => fin _ h
    refine Unwritten.then (r := false) ?_ (fun _ _ => nil _) (fun reply e₂ f₂ => ?_)
      fun e es' h => by rw [List.append_assoc]; exact fin _ (f₁.append h)
    · unfold interpExecute
      refine Unwritten.bind ?_ fun _ => Unwritten.bind (Unwritten.read _) fun _ => Unwritten.bind (unwritten_userCall unwritten_op _ _) fun _ =>
        Unwritten.bind (Unwritten.read _) fun _ => Unwritten.ofRes _
      unfold announce
      split
      · refine Unwritten.bind (Unwritten.lift ?_ ?_) fun _ => Unwritten.bind (Unwritten.read _) fun _ => unwritten_publish _ _ _ _ _ <;>
          intro w <;> split <;> rfl
      · exact Unwritten.pure _
    rw [List.append_assoc]
    have f₂ := f₁.append f₂
    generalize e₁ ++ e₂ = e₂ at f₂
    refine Unwritten.then (r := false) (Unwritten.ofRes _) (fun _ _ => nil _) (fun status e₃ f₃ => ?_)
      fun e es' h => by rw [List.append_assoc]; exact fin _ (f₂.append h)
    rw [List.append_assoc]
    have f₃ := f₂.append f₃
    generalize e₂ ++ e₃ = e₃ at f₃
    refine Pen.bind ((pen_sendReply (fun _ => nil _) _ _ _ _).mono (fun _ _ h => h) ?_)
    rintro es₁ d₁ x ⟨rfl, e₄, rfl, ho⟩
    cases x with
    | error e => rw [List.append_assoc]; exact fin _ (f₃.append fun _ => ho)
    | ok _ =>
      have ho : repliesIn e₄ ≠ [] := ho
      have hr' : repliesIn (es ++ e₃ ++ e₄) ≠ [] := by rw [repliesIn_app]; simp [ho]
      -- after the entry is written or not
      have tail : ∀ d, (∀ es', repliesIn es' ≠ [] → Final m es' d) →
          Pen (Noted m) (es ++ e₃ ++ e₄) d (fun es' d _ => Final m es' d) (abortK (σ := σ) env f.silent status f.stop) := by
        intro d hd
        have hc : Unwritten true (abortK (σ := σ) env f.silent status f.stop) := by
          unfold abortK
          split
          · exact unwritten_abortQueue
          · exact Unwritten.pure _
        refine (hc _ _ _ fun es' _ => (hd _ (replies_left hr')).noted).mono (fun _ _ h => h) ?_
        rintro es₁ d₁ x ⟨rfl, es', rfl, _⟩
        exact hd _ (replies_left hr')
      by_cases hst : f.silent = false ∧ (f.store && !f.silent) = true
      · have hS : Storable m ⟨lit "0", intToString f.line, f.code, []⟩ := by
          have h := hst.2
          simp only [Bool.and_eq_true] at h
          exact ⟨hr, f, hf, h.1, hst.1, rfl⟩
        refine Pen.bind ?_
        rw [storeK, if_pos hst]
        intro w
        refine ⟨[], [⟨lit "0", intToString f.line, f.code, []⟩], by simp, ?_, ?_, fun _ _ => ?_, fun _ hx => by cases hx⟩
        · rfl
        · simp only [List.append_nil, List.nil_append]
          exact .inr ⟨_, hS, hr', rfl⟩
        · simp only [List.append_nil, List.nil_append]
          exact tail _ fun es' h => .inr ⟨_, hS, h, rfl⟩
      · refine Pen.bind ?_
        rw [storeK, if_neg hst]
        refine tail [] fun es' _ => .inl ⟨rfl, .inl ?_⟩
        rintro e ⟨_, f', hf', h6, h7, _⟩
        rw [hf] at hf'
        cases hf'
        exact hst ⟨h7, by simp [h6, h7]⟩

theorem pen_handleType {m : XMessage} {ty : Str} (ht : typeOf m.body.header = some ty) (c : Chan) {es : List Ev} (he : repliesIn es = []) :
    Pen (Noted m) es [] (fun es' d _ => Final m es' d) (handleType env I ty m c) := by
  have calm : ∀ {p : K (World σ) Unit}, Unwritten true p → (∀ e, ¬ Storable m e) → Pen (Noted m) es [] (fun es' d _ => Final m es' d) p := by
    intro p hp hn
    refine (hp (Noted m) es [] fun _ _ => .inl rfl).mono (fun _ _ h => h) ?_
    rintro es₁ d₁ x ⟨rfl, _⟩
    exact .inl ⟨rfl, .inl hn⟩
  unfold handleType
  split
  · rename_i hh
    refine calm (Unwritten.pure _) ?_
    rintro e ⟨hr, _⟩
    rw [IsReq, ht] at hr
    cases hr
    rw [getHandler_req] at hh
    cases hh
  · rename_i q hh
    have ht' := getHandler_some hh
    subst ht'
    by_cases hq : q = .execute
    · subst hq
      refine Pen.catchStd ((pen_execute ht c he).mono (fun _ _ h => h) fun es' d x hx => ?_)
      cases x with
      | ok a => exact hx
      | error e => show ite _ _ _; split <;> exact hx
    · refine calm (Unwritten.catchStd (unwritten_handle hq _ _) fun _ => Unwritten.pure _) ?_
      rintro e ⟨hr, _⟩
      rw [IsReq, ht] at hr
      have h := getHandler_req .execute
      rw [← Option.some.inj hr, hh] at h
      exact hq (Option.some.inj h)

/-! ## A message -/

/-- What the handling of `q` may have written so far. -/
def NotedQ (env : Env) (q : Multipart) (es : List Ev) (d : Hist) : Prop :=
  d = [] ∨ ∃ m e, Accepted env.C env.J env.auth q m ∧ Storable m e ∧ repliesIn es ≠ [] ∧ d = [e]

/-- What the handling of `q` has written in the end. -/
def FinalQ (env : Env) (q : Multipart) (es : List Ev) (d : Hist) : Prop :=
  (Refused env.C env.J env.auth q ∧ d = []) ∨ ∃ m, Accepted env.C env.J env.auth q m ∧ Final m es d

theorem pen_dispatch (q : Multipart) (c : Chan) :
    Pen (NotedQ env q) [] [] (fun es d x => x = .ok () → FinalQ env q es d) (dispatch env I q c) := by
  unfold dispatch
  rcases deserialize_cases env.C env.J env.auth q with ⟨m, ha, h⟩ | ⟨hr, e, h, he⟩ | ⟨hu, s, h⟩
  · rw [h]
    refine Pen.bind ?_
    show Pen (NotedQ env q) [] [] _ (dispatchMsg env I m c)
    suffices h : Pen (Noted m) [] [] (fun es d x => x = .ok () → Final m es d) (dispatchMsg env I m c) by
      refine h.mono ?_ fun es d x hx hx' => .inr ⟨m, ha, hx hx'⟩
      rintro es d (h | ⟨e, h⟩)
      · exact .inl h
      · exact .inr ⟨m, e, ha, h⟩
    unfold dispatchMsg
    have nil : ∀ es', Noted m es' [] := fun _ => .inl rfl
    refine Unwritten.then (r := false) (Unwritten.ofRes _) (fun _ _ => nil _) (fun _ e₁ f₁ => ?_) fun _ _ _ h => by cases h
    refine Unwritten.then (r := false) ?_ (fun _ _ => nil _) (fun _ e₂ f₂ => ?_) fun _ _ _ h => by cases h
    · exact Unwritten.bind (Unwritten.modify (fun _ => rfl) fun _ => rfl) fun _ => Unwritten.modify (fun _ => rfl) fun _ => rfl
    refine Unwritten.then (r := false) (unwritten_publish _ _ _ _ _) (fun _ _ => nil _) (fun _ e₃ f₃ => ?_) fun _ _ _ h => by cases h
    cases hv : m.body.header.value (lit "msg_type") Json.getStr [] with
    | ok ty =>
      refine Pen.bind ?_
      show Pen (Noted m) _ [] _ (handleType env I ty m c >>= _)
      have he : repliesIn ([] ++ e₁ ++ e₂ ++ e₃) = [] := ((f₁.append f₂).append f₃) rfl
      refine Pen.bind ((pen_handleType (typeOf_value hv) c he).mono (fun _ _ h => h) fun es d x hx => ?_)
      cases x with
      | error e => intro h; cases h
      | ok _ =>
        refine ((unwritten_publish (r := false) _ _ _ _ _) (Noted m) es d fun es' hf => (hx.more (hf rfl)).noted).mono (fun _ _ h => h) ?_
        rintro es₁ d₁ x ⟨rfl, es', rfl, hf⟩ _
        exact hx.more (hf rfl)
    | exc e => exact fun h => by cases h
    | ub _ => trivial
    | hang => trivial
  · rw [h]
    refine Pen.bind ?_
    show Pen (NotedQ env q) [] [] _ (if e.isStd then _ else _)
    rw [if_pos he]
    exact fun _ => .inl ⟨hr, rfl⟩
  · rw [h]
    trivial

end Xeus
