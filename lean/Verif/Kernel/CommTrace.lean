import Verif.Kernel.Outgoing
import Verif.Comm.Spec

/-!
# What happens to the comms is on record (no property statements here)
-/

namespace Xeus

open Spec K

variable {σ : Type}

/-- The comms are untouched. -/
def SameComms (w w' : World σ) : Prop := w'.comm = w.comm ∧ w'.acts = w.acts

/-- The record of what was done to the comms since the start is true. -/
def Recorded (w w' : World σ) : Prop :=
  Trace Comms.empty w.acts w.comm → Trace Comms.empty w'.acts w'.comm

theorem SameComms.pre : Pre (SameComms (σ := σ)) where
  refl _ := ⟨rfl, rfl⟩
  trans h₁ h₂ := ⟨h₂.1.trans h₁.1, h₂.2.trans h₁.2⟩

theorem Recorded.pre : Pre (Recorded (σ := σ)) where
  refl _ := id
  trans h₁ h₂ := fun h => h₂ (h₁ h)

theorem SameComms.recorded {w w' : World σ} (h : SameComms w w') : Recorded w w' := by
  intro ht
  rw [h.1, h.2]
  exact ht

theorem Recorded.weaken {α : Type} {p : K (World σ) α} (h : Keeps SameComms p) : Keeps Recorded p :=
  fun w => (h w).recorded

/-! ## Everything that does not touch comms -/

theorem same_publish (env : Env) (t : Str) (md ct : Json) (bufs : List Frame) (c : Chan) :
    Keeps (SameComms (σ := σ)) (publishMessage env t md ct bufs c) := by
  intro w
  rw [run_publishMessage]
  cases env.log (.iopub (pubAt env w t md ct bufs c)) with
  | ok _ =>
    rw [K.andThen_ok]
    cases serializePub env.C env.J env.auth env.eh (pubAt env w t md ct bufs c) <;> exact ⟨rfl, rfl⟩
  | _ => exact ⟨rfl, rfl⟩

theorem same_sendReplyTo (env : Env) (ids : List Str) (t : Str) (par md ct : Json) (c : Chan) :
    Keeps (SameComms (σ := σ)) (sendReplyTo env ids t par md ct c) := by
  intro w
  rw [run_sendReplyTo]
  cases env.log (.sent (some c) (replyAt env w ids t par md ct)) with
  | ok _ =>
    rw [K.andThen_ok]
    cases serialize env.C env.J env.auth env.eh (replyAt env w ids t par md ct) <;> exact ⟨rfl, rfl⟩
  | _ => exact ⟨rfl, rfl⟩

theorem same_sendReply (env : Env) (t : Str) (md ct : Json) (c : Chan) :
    Keeps (SameComms (σ := σ)) (sendReply env t md ct c) := by
  intro w
  rw [run_sendReply]
  exact same_sendReplyTo ..

theorem same_emit (e : Ev) : Keeps (SameComms (σ := σ)) (emit e) := Keeps.modify fun _ => ⟨rfl, rfl⟩

theorem same_dispatchStdin (env : Env) (wire : Multipart) : Keeps (SameComms (σ := σ)) (dispatchStdin env wire) := by
  have hp := SameComms.pre (σ := σ)
  refine Keeps.catchStd hp ?_ fun _ => Keeps.pure hp _
  refine Keeps.bind hp (Keeps.ofRes hp _) fun _ => ?_
  refine Keeps.bind hp (Keeps.ofRes hp _) fun _ => ?_
  refine Keeps.bind hp (Keeps.ofRes hp _) fun _ => ?_
  exact Keeps.modify fun _ => ⟨rfl, rfl⟩

theorem same_recvStdin : Keeps (SameComms (σ := σ)) recvStdin := by
  refine Keeps.lift fun w => ?_
  cases h : w.stdinQ <;> exact ⟨rfl, rfl⟩

theorem same_sendStdin (env : Env) (t : Str) (md ct : Json) : Keeps (SameComms (σ := σ)) (sendStdin env t md ct) := by
  intro w
  rw [run_sendStdin]
  simp only
  have hp := SameComms.pre (σ := σ)
  cases env.log (.sent none (replyAt env w (w.parent .shell).ids t (w.parent .shell).header md ct)) with
  | ok _ =>
    rw [K.andThen_ok]
    cases serialize env.C env.J env.auth env.eh (replyAt env w (w.parent .shell).ids t (w.parent .shell).header md ct) with
    | ok wire =>
      rw [K.andThen_ok]
      refine hp.trans (b := { tick w with out := (tick w).out ++ [.stdin (replyAt env w (w.parent .shell).ids t
        (w.parent .shell).header md ct) wire] }) ⟨rfl, rfl⟩ ?_
      have := Keeps.bind hp (same_recvStdin (σ := σ)) (fun a => same_dispatchStdin env a)
        { tick w with out := (tick w).out ++ [.stdin (replyAt env w (w.parent .shell).ids t (w.parent .shell).header md ct) wire] }
      rwa [K.run_bind] at this
    | _ => exact ⟨rfl, rfl⟩
  | _ => exact ⟨rfl, rfl⟩

theorem same_blockingInput (env : Env) (prompt : Str) (pwd : Bool) :
    Keeps (SameComms (σ := σ)) (blockingInput env prompt pwd) := by
  have hp := SameComms.pre (σ := σ)
  refine Keeps.bind hp (Keeps.modify fun _ => ⟨rfl, rfl⟩) fun _ => ?_
  refine Keeps.bind hp (same_sendStdin env _ _ _) fun _ => ?_
  refine Keeps.bind hp (Keeps.read hp _) fun _ => ?_
  exact Keeps.bind hp (Keeps.modify fun _ => ⟨rfl, rfl⟩) fun _ => Keeps.pure hp _

theorem same_getMetadata (env : Env) : Keeps (SameComms (σ := σ)) (getMetadata env) := by
  have hp := SameComms.pre (σ := σ)
  exact Keeps.bind hp (Keeps.lift fun _ => ⟨rfl, rfl⟩) fun _ => Keeps.pure hp _

theorem same_incCount : Keeps (SameComms (σ := σ)) incCount := by
  refine Keeps.lift fun w => ?_
  cases intAdd w.count 1 <;> exact ⟨rfl, rfl⟩

theorem same_announce (env : Env) (code : Str) (silent : Bool) : Keeps (SameComms (σ := σ)) (announce env code silent) := by
  have hp := SameComms.pre (σ := σ)
  unfold announce
  split
  · exact Keeps.bind hp same_incCount fun _ => Keeps.bind hp (Keeps.read hp _) fun _ => same_publish env _ _ _ _ _
  · exact Keeps.pure hp _

theorem same_abortRequest (env : Env) (wire : Multipart) : Keeps (SameComms (σ := σ)) (abortRequest env wire) := by
  have hp := SameComms.pre (σ := σ)
  refine Keeps.bind hp (Keeps.ofRes hp _).attempt fun r => ?_
  cases r with
  | ok msg =>
    exact Keeps.bind hp (Keeps.ofRes hp _) fun _ => Keeps.bind hp (Keeps.ofRes hp _) fun _ => same_sendReplyTo _ _ _ _ _ _ _
  | error e =>
    simp only
    split
    · exact Keeps.pure hp _
    · exact Keeps.throw hp _

theorem same_recvShell : Keeps (SameComms (σ := σ)) recvShell := by
  refine Keeps.lift fun w => ?_
  cases h : w.shellQ <;> exact ⟨rfl, rfl⟩

theorem same_abortLoop (env : Env) (n : Nat) : Keeps (SameComms (σ := σ)) (abortLoop env n) := by
  have hp := SameComms.pre (σ := σ)
  induction n with
  | zero => exact Keeps.pure hp _
  | succ n ih =>
    refine Keeps.bind hp same_recvShell fun r => ?_
    cases r with
    | none => exact Keeps.pure hp _
    | some wire => exact Keeps.bind hp (same_abortRequest env wire) fun _ => ih

theorem same_storeK (silent store : Bool) (line : Int) (code : Str) :
    Keeps (SameComms (σ := σ)) (storeK silent store line code) := by
  unfold storeK
  split
  · exact Keeps.modify fun _ => ⟨rfl, rfl⟩
  · exact Keeps.pure SameComms.pre _

theorem same_abortK (env : Env) (silent : Bool) (status : Str) (stop : Bool) :
    Keeps (SameComms (σ := σ)) (abortK env silent status stop) := by
  have hp := SameComms.pre (σ := σ)
  unfold abortK
  split
  · exact Keeps.bind hp (Keeps.read hp _) fun _ => same_abortLoop env _
  · exact Keeps.pure hp _

/-! ## Everything -/

theorem rec_onComms {α : Type} {act : CommAct} {f : Comms → Res (α × Comms)}
    (h : ∀ s a s', f s = .ok (a, s') → Does act s s') : Keeps (Recorded (σ := σ)) (onComms act f) := by
  refine Keeps.lift fun w => ?_
  cases hf : f w.comm with
  | ok r => exact fun ht => ht.snoc (h _ _ _ hf)
  | _ => exact id

theorem rec_op (env : Env) (o : Op) : Keeps (Recorded (σ := σ)) (o.sem env) := by
  have hp := Recorded.pre (σ := σ)
  cases o with
  | pub p => exact Keeps.bind hp (Recorded.weaken (same_publish env _ _ _ _ _)) fun _ => Keeps.pure hp _
  | input prompt pwd => exact Keeps.bind hp (Recorded.weaken (same_blockingInput env prompt pwd)) fun _ => Keeps.pure hp _
  | parentHeader => exact Keeps.bind hp (Keeps.read hp _) fun _ => Keeps.pure hp _
  | history q => exact Keeps.bind hp (Keeps.readR hp _) fun _ => Keeps.pure hp _
  | comm o =>
    show Keeps Recorded (commOp env o)
    unfold commOp
    refine Keeps.bind hp ?_ fun _ => rec_onComms fun s a s' h => ⟨a, h⟩
    unfold commGuid
    split
    · exact Keeps.lift fun _ => SameComms.recorded ⟨rfl, rfl⟩
    · exact Keeps.pure hp _
  | commSend k a md d bufs =>
    exact Keeps.bind hp (Keeps.readR hp _) fun _ => Keeps.bind hp (Recorded.weaken (same_publish env _ _ _ _ _)) fun _ =>
      Keeps.pure hp _

theorem rec_user (env : Env) {α : Type} (p : Prog σ Op α) : Keeps Recorded (p.exec (Op.sem env)) :=
  keeps_exec Recorded.pre (fun _ _ => SameComms.recorded ⟨rfl, rfl⟩) (rec_op env) p

theorem rec_sendToShell (env : Env) (I : Interp σ) (j : Json) : Keeps Recorded (sendToShell env I j) := by
  have hp := Recorded.pre (σ := σ)
  refine Keeps.bind hp (Keeps.ofRes hp _) fun _ => ?_
  refine Keeps.bind hp ?_ fun _ => Keeps.ofRes hp _
  refine Keeps.bind hp (Keeps.ofRes hp _) fun _ => ?_
  exact Keeps.bind hp (rec_user env _) fun _ => Keeps.ofRes hp _

theorem rec_debugger (env : Env) (I : Interp σ) {α : Type} (p : Prog σ DOp α) :
    Keeps Recorded (p.exec (DOp.sem env I)) := by
  have hp := Recorded.pre (σ := σ)
  refine keeps_exec hp (fun _ _ => SameComms.recorded ⟨rfl, rfl⟩) (fun o => ?_) p
  cases o with
  | base o => exact rec_op env o
  | toShell j => exact Keeps.bind hp (rec_sendToShell env I j) fun _ => Keeps.pure hp _

theorem rec_userCall {Ω α : Type} {sem : Ω → K (World σ) Val} {p : Prog σ Ω α}
    (h : Keeps Recorded (p.exec sem)) (k : Call) : Keeps Recorded (userCall sem k p) := by
  have hp := Recorded.pre (σ := σ)
  refine Keeps.bind hp (Recorded.weaken (same_emit _)) fun _ => Keeps.bind hp h.attempt fun r => ?_
  cases r with
  | ok a => exact Keeps.pure hp _
  | error e => exact Keeps.bind hp (Recorded.weaken (same_emit _)) fun _ => Keeps.throw hp _

theorem rec_commOpen (env : Env) (I : Interp σ) (m : XMessage) : Keeps Recorded (commOpen env I m) := by
  have hp := Recorded.pre (σ := σ)
  refine Keeps.bind hp (rec_onComms fun s a s' h => ?_) fun r => Keeps.bind hp (Keeps.attempt ?_) fun res =>
    Keeps.bind hp (rec_onComms fun s a s' h => ?_) fun _ => ?_
  · obtain ⟨x, hx, h⟩ := Res.bind_eq_ok.1 h
    simp only [Res.pure_def, Res.ok.injEq, Prod.mk.injEq] at h
    exact ⟨x.1, x.2.1, by rw [hx, ← h.2]⟩
  · cases r.2 with
    | none => exact Keeps.throw hp _
    | some cb => exact rec_userCall (rec_user env _) _
  · obtain ⟨x, hx, h⟩ := Res.bind_eq_ok.1 h
    simp only [Res.pure_def, Res.ok.injEq, Prod.mk.injEq] at h
    exact ⟨.unit, by simp [CommOp.apply, hx, h.2]⟩
  · cases res with
    | ok _ => exact Keeps.pure hp _
    | error e => exact Keeps.throw hp _

theorem rec_runHandler (env : Env) (I : Interp σ) (h : Option Nat) (m : XMessage) :
    Keeps Recorded (runHandler env I h m) := by
  cases h with
  | none => exact Keeps.pure Recorded.pre _
  | some n => exact rec_userCall (rec_user env _) _

theorem rec_interpExecute (env : Env) (I : Interp σ) (code : Str) (silent store : Bool) (exprs : Json) (allow : Bool) :
    Keeps Recorded (interpExecute env I code silent store exprs allow) := by
  have hp := Recorded.pre (σ := σ)
  exact Keeps.bind hp (Recorded.weaken (same_announce env _ _)) fun _ => Keeps.bind hp (Keeps.read hp _) fun _ =>
    Keeps.bind hp (rec_userCall (rec_user env _) _) fun _ => Keeps.bind hp (Keeps.read hp _) fun _ => Keeps.ofRes hp _

theorem rec_handle (env : Env) (I : Interp σ) (r : Req) (m : XMessage) (c : Chan) :
    Keeps Recorded (handle env I r m c) := by
  have hp := Recorded.pre (σ := σ)
  have ofr : ∀ {α β : Type} (x : Res α) (k : α → K (World σ) β), (∀ a, Keeps Recorded (k a)) →
      Keeps Recorded (K.ofRes x >>= k) := fun x k h => Keeps.bind hp (Keeps.ofRes hp _) h
  have rep : ∀ t md ct, Keeps (Recorded (σ := σ)) (sendReply env t md ct c) := fun t md ct =>
    Recorded.weaken (same_sendReply env t md ct c)
  have pub : ∀ t md ct b c', Keeps (Recorded (σ := σ)) (publishMessage env t md ct b c') := fun t md ct b c' =>
    Recorded.weaken (same_publish env t md ct b c')
  cases r with
  | execute =>
    refine Keeps.catchStd hp ?_ fun _ => Keeps.pure hp _
    refine ofr _ _ fun _ => ofr _ _ fun _ => ofr _ _ fun _ => ofr _ _ fun _ => ofr _ _ fun _ => ofr _ _ fun _ => ofr _ _ fun _ => ?_
    refine Keeps.bind hp (Recorded.weaken (same_getMetadata env)) fun _ => Keeps.bind hp (rec_interpExecute env I _ _ _ _ _) fun _ =>
      ofr _ _ fun _ => Keeps.bind hp (rep _ _ _) fun _ => Keeps.bind hp (Recorded.weaken (same_storeK _ _ _ _)) fun _ =>
      Recorded.weaken (same_abortK env _ _ _)
  | complete => exact ofr _ _ fun _ => ofr _ _ fun _ => Keeps.bind hp (rec_userCall (rec_user env _) _) fun _ => rep _ _ _
  | inspect => exact ofr _ _ fun _ => ofr _ _ fun _ => ofr _ _ fun _ =>
      Keeps.bind hp (rec_userCall (rec_user env _) _) fun _ => rep _ _ _
  | history => exact Keeps.bind hp (Keeps.readR hp _) fun _ => rep _ _ _
  | isComplete => exact ofr _ _ fun _ => Keeps.bind hp (rec_userCall (rec_user env _) _) fun _ => rep _ _ _
  | commInfo => exact ofr _ _ fun _ => Keeps.bind hp (Keeps.readR hp _) fun _ => rep _ _ _
  | commOpen => exact rec_commOpen env I m
  | commClose => exact Keeps.bind hp (Keeps.readR hp _) fun _ => Keeps.bind hp (rec_runHandler env I _ m) fun _ =>
      Keeps.modify fun _ ht => ht.snoc rfl
  | commMsg => exact Keeps.bind hp (Keeps.readR hp _) fun _ => rec_runHandler env I _ m
  | kernelInfo => exact Keeps.bind hp (rec_userCall (rec_user env _) _) fun _ => ofr _ _ fun _ => rep _ _ _
  | shutdown => exact ofr _ _ fun _ => Keeps.bind hp (rec_userCall (rec_user env _) _) fun _ =>
      Keeps.bind hp (Recorded.weaken (same_emit _)) fun _ => Keeps.bind hp (pub _ _ _ _ _) fun _ => rep _ _ _
  | interrupt => exact Keeps.bind hp (pub _ _ _ _ _) fun _ => rep _ _ _
  | debug =>
    show Keeps Recorded (debugRequest env I m c)
    unfold debugRequest
    cases I.debug with
    | none => exact Keeps.pure hp _
    | some d => exact Keeps.bind hp (rec_userCall (rec_debugger env I _) _) fun _ =>
        Keeps.bind hp (Recorded.weaken (same_getMetadata env)) fun _ => rep _ _ _

theorem rec_dispatch (env : Env) (I : Interp σ) (q : Multipart) (c : Chan) : Keeps Recorded (dispatch env I q c) := by
  have hp := Recorded.pre (σ := σ)
  refine Keeps.bind hp (Keeps.ofRes hp _).attempt fun r => ?_
  cases r with
  | ok m =>
    refine Keeps.bind hp (Keeps.ofRes hp _) fun _ => Keeps.bind hp ?_ fun _ => Keeps.bind hp
      (Recorded.weaken (same_publish env _ _ _ _ _)) fun _ => Keeps.bind hp (Keeps.ofRes hp _) fun t => Keeps.bind hp ?_
      fun _ => Recorded.weaken (same_publish env _ _ _ _ _)
    · intro w
      rw [run_setParent]
      exact SameComms.recorded ⟨rfl, rfl⟩
    · unfold handleType
      cases getHandler t with
      | none => exact Keeps.pure hp _
      | some r => exact Keeps.catchStd hp (rec_handle env I r m c) fun _ => Keeps.pure hp _
  | error e =>
    simp only
    split
    · exact Keeps.pure hp _
    · exact Keeps.throw hp _

theorem rec_session (env : Env) (I : Interp σ) (xs : List (Multipart × Chan)) : Keeps Recorded (session env I xs) := by
  induction xs with
  | nil => exact Keeps.pure Recorded.pre _
  | cons x r ih => exact Keeps.bind Recorded.pre (rec_dispatch env I x.1 x.2) fun _ => ih

end Xeus
