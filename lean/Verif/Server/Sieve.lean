import Verif.KernelConc.Serial
import Verif.Kernel.Sessions
import Verif.Server.SieveSpec
import Verif.Wire.Props

/-!
# Handlers and the refused messages in the queue (no property statements here)
-/

namespace Xeus

open Spec K

variable {σ : Type} {env : Env}

/-- The messages that are not refused. -/
noncomputable abbrev heard (env : Env) (l : List Multipart) : List Multipart := unrefused env id l

theorem heard_append (a b : List Multipart) : heard env (a ++ b) = heard env a ++ heard env b := by simp [heard, unrefused]

theorem heard_refused {q : Multipart} {l : List Multipart} (h : Refused env.C env.J env.auth q) : heard env (q :: l) = heard env l := by
  simp [heard, unrefused, h]

theorem heard_kept {q : Multipart} {l : List Multipart} (h : ¬ Refused env.C env.J env.auth q) : heard env (q :: l) = q :: heard env l := by
  simp [heard, unrefused, h]

/-- Without the refused messages that wait on the shell socket. -/
noncomputable def World.sift (env : Env) (w : World σ) : World σ := { w with shellQ := heard env w.shellQ }

/-- It makes no difference whether refused messages wait on the shell socket. -/
def Sieves (env : Env) (p : K (World σ) α) : Prop := ∀ w, p.run (w.sift env) = ((p.run w).1, (p.run w).2.sift env)

theorem Blind.queue {p : K (World σ) α} (h : Blind p) (w : World σ) : (p.run w).2.shellQ = w.shellQ := by
  induction p generalizing w with
  | done r => rfl
  | act f k ih =>
    have hf := h.1.same w
    simp only [K.run]
    rcases hx : f w with ⟨x, w'⟩
    rw [hx] at hf
    cases x with
    | ok b => exact (ih _ (h.2 _) _).trans hf
    | exc e => exact (ih _ (h.2 _) _).trans hf
    | ub s => exact hf
    | hang => exact hf

theorem Blind.sieves {p : K (World σ) α} (h : Blind p) : Sieves env p := by
  intro w
  have h1 := h.run { w with shellQ := [] } (heard env w.shellQ) [] (.inl rfl)
  have h2 := h.run { w with shellQ := [] } w.shellQ [] (.inl rfl)
  have e1 : ({ w with shellQ := [] } : World σ).more (heard env w.shellQ) [] = w.sift env := by simp [World.more, World.sift]
  have e2 : ({ w with shellQ := [] } : World σ).more w.shellQ [] = w := by simp [World.more]
  have h3 : (p.run { w with shellQ := [] }).2.shellQ = [] := h.queue _
  rw [e1] at h1
  rw [e2] at h2
  rw [h1, h2]
  simp [World.more, World.sift, h3]

theorem Sieves.bind {m : K (World σ) α} {g : α → K (World σ) β} (h : Sieves env m) (hg : ∀ a, Sieves env (g a)) : Sieves env (m >>= g) := by
  intro w
  rw [K.run_bind, K.run_bind, h w]
  rcases m.run w with ⟨r, w'⟩
  cases r with
  | ok a => exact hg a w'
  | _ => rfl

theorem Sieves.attempt {m : K (World σ) α} (h : Sieves env m) : Sieves env m.attempt := by
  intro w
  rw [K.run_attempt, K.run_attempt, h w]
  rcases m.run w with ⟨r, w'⟩
  cases r <;> rfl

theorem Sieves.catchStd {m : K (World σ) α} {h : Exc → K (World σ) α} (hm : Sieves env m) (hh : ∀ e, Blind (h e)) :
    Sieves env (K.catchStd m h) := by
  refine hm.attempt.bind fun r => ?_
  cases r with
  | ok a => exact Blind.sieves (by trivial)
  | error e => simp only; split <;> first | exact (hh e).sieves | exact Blind.sieves (by trivial)

theorem abortRequest_refused {q : Multipart} (h : Refused env.C env.J env.auth q) (w : World σ) :
    (abortRequest env q).run w = (.ok (), w) := by
  obtain ⟨e, h1, h2⟩ := (C03_refused_iff env.C env.J env.auth q).2 h
  simp [abortRequest, h1, h2]

theorem sieves_abortLoop (N : Nat) : ∀ (w : World σ) (N' : Nat), w.shellQ.length < N → (heard env w.shellQ).length < N' →
    (abortLoop env N').run (w.sift env) = (((abortLoop env N).run w).1, ((abortLoop env N).run w).2.sift env) := by
  have run_nil : ∀ {N} {x : World σ}, x.shellQ = [] → (abortLoop env (N + 1)).run x = (.ok (), x) := by
    intro N x hx
    simp only [abortLoop, recvShell, K.run_bind, K.run_lift, hx, K.andThen_ok, K.run_pure]
  have run_cons : ∀ {N} {x : World σ} {q r}, x.shellQ = q :: r →
      (abortLoop env (N + 1)).run x = (abortRequest env q >>= fun _ => abortLoop env N).run { x with shellQ := r } := by
    intro N x q r hx
    simp only [abortLoop, recvShell, K.run_bind, K.run_lift, hx, K.andThen_ok]
  induction N with
  | zero => intro w N' h; omega
  | succ N ih =>
    intro w N' h1 h2
    cases N' with
    | zero => omega
    | succ N' =>
      rcases hq : w.shellQ with _ | ⟨q, r⟩
      · rw [run_nil hq, run_nil (by simp [World.sift, hq, heard, unrefused])]
      · rw [hq] at h1 h2
        by_cases hr : Refused env.C env.J env.auth q
        · rw [heard_refused hr] at h2
          rw [run_cons hq, K.run_bind, abortRequest_refused hr, K.andThen_ok]
          have e : w.sift env = ({ w with shellQ := r } : World σ).sift env := by simp [World.sift, hq, heard_refused hr]
          rw [e]
          exact ih { w with shellQ := r } (N' + 1) (by simpa using h1) h2
        · rw [heard_kept hr] at h2
          rw [run_cons hq, run_cons (x := w.sift env) (q := q) (r := heard env r) (by simp [World.sift, hq, heard_kept hr]), K.run_bind, K.run_bind]
          have e : { w.sift env with shellQ := heard env r } = ({ w with shellQ := r } : World σ).sift env := rfl
          have hb := blind_abortRequest (σ := σ) (env := env) q
          rw [e, hb.sieves]
          have hk := hb.queue { w with shellQ := r }
          rcases hx : (abortRequest env q).run { w with shellQ := r } with ⟨x, w'⟩
          rw [hx] at hk
          cases x with
          | ok _ =>
            refine ih w' N' ?_ ?_
            · rw [show w'.shellQ = r from hk]; simpa using h1
            · rw [show w'.shellQ = r from hk]; simpa using h2
          | _ => rfl

theorem sieves_abortQueue : Sieves (σ := σ) env (abortQueue env) := by
  intro w
  rw [abortQueue, K.run_bind, K.run_bind, K.run_read, K.run_read, K.andThen_ok, K.andThen_ok]
  exact sieves_abortLoop _ w _ (by omega) (by simp [World.sift]; omega)

theorem sieves_executeBody (I : Interp σ) (m : XMessage) (c : Chan) : Sieves env (executeBody env I m c) := by
  unfold executeBody
  refine (Blind.ofRes _).sieves.bind fun _ => (Blind.ofRes _).sieves.bind fun _ => (Blind.ofRes _).sieves.bind fun _ =>
    (Blind.ofRes _).sieves.bind fun _ => (Blind.ofRes _).sieves.bind fun _ => (Blind.ofRes _).sieves.bind fun _ =>
    (Blind.ofRes _).sieves.bind fun _ => blind_getMetadata.sieves.bind fun _ =>
    (blind_interpExecute _ _ _ _ _ _).sieves.bind fun _ => (Blind.ofRes _).sieves.bind fun _ =>
    (blind_sendReply _ _ _ _).sieves.bind fun _ => Sieves.bind ?_ fun _ => ?_
  · refine Blind.sieves ?_
    unfold storeK
    split
    · exact Blind.modify (fun _ => rfl) fun _ _ _ => rfl
    · exact Blind.pure _
  · unfold abortK
    split
    · exact sieves_abortQueue
    · exact (Blind.pure _).sieves

theorem sieves_handleType (I : Interp σ) (ty : Str) (m : XMessage) (c : Chan) : Sieves env (handleType env I ty m c) := by
  unfold handleType
  split
  · exact (Blind.pure _).sieves
  · rename_i r _
    refine Sieves.catchStd ?_ fun _ => Blind.pure _
    by_cases hr : r = .execute
    · subst hr
      exact (sieves_executeBody I m c).catchStd fun _ => Blind.pure _
    · exact (blind_handle I hr m c).sieves

theorem sieves_dispatch (I : Interp σ) (q : Multipart) (c : Chan) : Sieves env (dispatch env I q c) := by
  refine (Blind.ofRes _).attempt.sieves.bind fun r => ?_
  cases r with
  | error e => simp only; split <;> first | exact (Blind.pure _).sieves | exact (Blind.throw _).sieves
  | ok msg =>
    exact (blind_logK _).sieves.bind fun _ => (blind_setParent _ _ _).sieves.bind fun _ =>
      (blind_publish _ _ _ _ _).sieves.bind fun _ => (Blind.ofRes _).sieves.bind fun _ =>
      (sieves_handleType I _ _ _).bind fun _ => (blind_publish _ _ _ _ _).sieves

end Xeus
