import Verif.Server.Remote
import Verif.Server.Channels

/-!
# Handlers that ask the shell thread: lemmas (no property statements here)
-/

namespace Xeus

namespace A

variable {S α β : Type} (serve : Frame → K S Frame)

theorem inline_bind (m : A S α) (g : α → A S β) :
    (m >>= g).inline serve = (m.inline serve >>= fun a => (g a).inline serve) := by
  show (m.bind g).inline serve = (m.inline serve).bind _
  induction m with
  | done r => cases r <;> rfl
  | act f k ih => simp only [bind, inline, K.bind, ih]
  | ask t k ih =>
    simp only [bind, inline, ih]
    exact (K.bind_assoc_aux _ _ _).symm

theorem attempt_attempt (m : K S α) (g : Except Exc α → K S β) :
    (m.attempt.bind g).attempt = m.attempt.bind fun r => (g r).attempt := by
  induction m with
  | done r => cases r <;> rfl
  | act f k ih => simp only [K.attempt, K.bind, ih]

theorem inline_attempt (m : A S α) : m.attempt.inline serve = (m.inline serve).attempt := by
  induction m with
  | done r => cases r <;> rfl
  | act f k ih => simp only [attempt, inline, K.attempt, ih]
  | ask t k ih => simp only [attempt, inline, ih, attempt_attempt]

theorem inline_ofK (m : K S α) : (ofK m).inline serve = m := by
  induction m with
  | done r => rfl
  | act f k ih => simp only [ofK, inline, ih]

theorem inline_ofRes (r : Res α) : (ofRes r : A S α).inline serve = K.ofRes r := rfl

theorem inline_pure (a : α) : (pure a : A S α).inline serve = pure a := rfl

theorem inline_throw (e : Exc) : (throw e : A S α).inline serve = K.throw e := rfl

theorem inline_question (t : Frame) : (question t : A S Frame).inline serve = serve t := by
  simp only [question, inline]
  generalize serve t = m
  induction m with
  | done r => cases r <;> rfl
  | act f k ih =>
    simp only [K.attempt, K.bind, ih]

theorem inline_catchStd (m : A S α) (h : Exc → A S α) :
    (catchStd m h).inline serve = K.catchStd (m.inline serve) fun e => (h e).inline serve := by
  unfold catchStd K.catchStd
  rw [inline_bind, inline_attempt]
  congr 1
  funext r
  cases r with
  | ok a => rfl
  | error e => simp only; split <;> rfl

end A

section
variable {σ : Type} (env : Env) (I : Interp σ)

theorem inline_askShell (j : Json) : (askShell env j).inline (dispatchInternal env I) = sendToShell env I j := by
  unfold askShell sendToShell
  simp only [A.inline_bind, A.inline_ofRes, A.inline_question]

theorem inline_semA (o : DOp) : (o.semA env).inline (dispatchInternal env I) = o.sem env I := by
  cases o with
  | base o => exact A.inline_ofK _ _
  | toShell j =>
    unfold DOp.semA DOp.sem
    simp only [A.inline_bind, inline_askShell]
    rfl

theorem inline_execA {Ω α : Type} {semA : Ω → A (World σ) Val} {sem : Ω → K (World σ) Val}
    (h : ∀ o, (semA o).inline (dispatchInternal env I) = sem o) (p : Prog σ Ω α) :
    (p.execA semA).inline (dispatchInternal env I) = p.exec sem := by
  induction p with
  | ret a => rfl
  | throw e => rfl
  | ub w => rfl
  | hang => rfl
  | get k ih => simp only [Prog.execA, Prog.exec, A.inline_bind, A.inline_ofK, ih]
  | set s k ih => simp only [Prog.execA, Prog.exec, A.inline_bind, A.inline_ofK, ih]
  | call o k ih => simp only [Prog.execA, Prog.exec, A.inline_bind, A.inline_attempt, h, ih]

theorem inline_userCallA {Ω α : Type} {semA : Ω → A (World σ) Val} {sem : Ω → K (World σ) Val}
    (h : ∀ o, (semA o).inline (dispatchInternal env I) = sem o) (k : Call) (p : Prog σ Ω α) :
    (userCallA semA k p).inline (dispatchInternal env I) = userCall sem k p := by
  unfold userCallA userCall
  rw [A.inline_bind, A.inline_ofK]
  congr 1
  funext _
  rw [A.inline_bind, A.inline_attempt, inline_execA env I h]
  congr 1
  funext r
  cases r with
  | ok a => rfl
  | error e => simp only [A.inline_bind, A.inline_ofK, A.inline_throw]

theorem inline_debug (m : XMessage) (c : Chan) :
    (debugRequestA env I m c).inline (dispatchInternal env I) = debugRequest env I m c := by
  unfold debugRequestA debugRequest
  cases I.debug with
  | none => rfl
  | some d => simp only [A.inline_bind, inline_userCallA env I (inline_semA env I), A.inline_ofK]

theorem inline_handleA (r : Req) (m : XMessage) (c : Chan) :
    (handleA env I r m c).inline (dispatchInternal env I) = handle env I r m c := by
  cases r with
  | debug => exact inline_debug env I m c
  | _ => exact A.inline_ofK _ _

theorem inline_handleTypeA (t : Str) (m : XMessage) (c : Chan) :
    (handleTypeA env I t m c).inline (dispatchInternal env I) = handleType env I t m c := by
  unfold handleTypeA handleType
  cases getHandler t with
  | none => rfl
  | some r =>
    simp only [A.inline_catchStd, inline_handleA]
    rfl

theorem inline_dispatchMsgA (m : XMessage) (c : Chan) :
    (dispatchMsgA env I m c).inline (dispatchInternal env I) = dispatchMsg env I m c := by
  unfold dispatchMsgA dispatchMsg
  simp only [A.inline_bind, A.inline_ofK, A.inline_ofRes, inline_handleTypeA]

/-- A handler that answers its questions itself is the handler of the default server. -/
theorem inline_dispatchA (q : Multipart) (c : Chan) :
    (dispatchA env I q c).inline (dispatchInternal env I) = dispatch env I q c := by
  unfold dispatchA dispatch
  rw [A.inline_bind, A.inline_ofK]
  congr 1
  funext r
  cases r with
  | ok msg => exact inline_dispatchMsgA env I msg c
  | error e => simp only; split <;> rfl

end

end Xeus
