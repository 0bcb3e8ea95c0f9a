import Verif.Server.PartsSpec
import Verif.Kernel.Dispatch
import Verif.Kernels.SureDispatch

/-!
# What the threads of the split servers touch: lemmas
-/

namespace Xeus

open Spec

variable {σ α β γ : Type} {P : Part → Prop} {env : Env}

/-- The accesses leave the parts `P` untouched. -/
def K.Spares (P : Part → Prop) : K (World σ) α → Prop
  | .done _ => True
  | .act f k => (∀ p, P p → Untouched p f) ∧ ∀ r, (k r).Spares P

/-- The same for computations that may ask the shell thread. -/
def A.Spares (P : Part → Prop) : A (World σ) α → Prop
  | .done _ => True
  | .act f k => (∀ p, P p → Untouched p f) ∧ ∀ r, (k r).Spares P
  | .ask _ k => ∀ r, (k r).Spares P

namespace K.Spares

theorem bind {m : K (World σ) α} {g : α → K (World σ) β} (h : m.Spares P) (hg : ∀ a, (g a).Spares P) : (m >>= g).Spares P := by
  show (K.bind m g).Spares P
  induction m with
  | done r => cases r <;> first | exact hg _ | trivial
  | act f k ih => exact ⟨h.1, fun r => ih r (h.2 r)⟩

theorem attempt {m : K (World σ) α} (h : m.Spares P) : m.attempt.Spares P := by
  induction m with
  | done r => cases r <;> trivial
  | act f k ih => exact ⟨h.1, fun r => ih r (h.2 r)⟩

theorem pure (a : α) : (Pure.pure a : K (World σ) α).Spares P := trivial

theorem ofRes (r : Res α) : (K.ofRes r : K (World σ) α).Spares P := trivial

theorem throw (e : Exc) : (K.throw e : K (World σ) α).Spares P := trivial

theorem catchStd {m : K (World σ) α} {g : Exc → K (World σ) α} (h : m.Spares P) (hg : ∀ e, (g e).Spares P) :
    (m.catchStd g).Spares P := by
  refine bind h.attempt fun r => ?_
  rcases r with e | a
  · simp only
    split
    · exact hg _
    · trivial
  · exact pure a

theorem lift {f : World σ → Res α × World σ} (h : ∀ p, P p → Untouched p f) : (K.lift f).Spares P :=
  ⟨h, fun r => by cases r <;> trivial⟩

theorem read {f : World σ → α} (h : ∀ p, P p → ∀ w v, f (graft w v p) = f w) : (K.read f).Spares P :=
  lift fun p hp w v => by simp only [h p hp w v]

theorem readR {f : World σ → Res α} (h : ∀ p, P p → ∀ w v, f (graft w v p) = f w) : (K.readR f).Spares P :=
  lift fun p hp w v => by simp only [h p hp w v]

theorem modify {f : World σ → World σ} (h : ∀ p, P p → ∀ w v, f (graft w v p) = graft (f w) v p) : (K.modify f).Spares P :=
  lift fun p hp w v => by simp only [h p hp w v]

end K.Spares

namespace A.Spares

theorem bind {m : A (World σ) α} {g : α → A (World σ) β} (h : m.Spares P) (hg : ∀ a, (g a).Spares P) : (m >>= g).Spares P := by
  show (A.bind m g).Spares P
  induction m with
  | done r => cases r <;> first | exact hg _ | trivial
  | act f k ih => exact ⟨h.1, fun r => ih r (h.2 r)⟩
  | ask t k ih => exact fun r => ih r (h r)

theorem attempt {m : A (World σ) α} (h : m.Spares P) : m.attempt.Spares P := by
  induction m with
  | done r => cases r <;> trivial
  | act f k ih => exact ⟨h.1, fun r => ih r (h.2 r)⟩
  | ask t k ih => exact fun r => ih r (h r)

theorem ofK {m : K (World σ) α} (h : m.Spares P) : (A.ofK m).Spares P := by
  induction m with
  | done r => trivial
  | act f k ih => exact ⟨h.1, fun r => ih r (h.2 r)⟩

theorem pure (a : α) : (Pure.pure a : A (World σ) α).Spares P := trivial

theorem catchStd {m : A (World σ) α} {g : Exc → A (World σ) α} (h : m.Spares P) (hg : ∀ e, (g e).Spares P) :
    (m.catchStd g).Spares P := by
  refine bind h.attempt fun r => ?_
  rcases r with e | a
  · simp only
    split
    · exact hg _
    · trivial
  · exact pure a

end A.Spares

/-! ## Primitive effects -/

theorem spares_emit (e : Ev) : (emit (σ := σ) e).Spares P :=
  K.Spares.modify fun p _ w v => by cases p <;> rfl

theorem spares_logK (e : LogEv) : (logK (σ := σ) env e).Spares P := trivial

theorem spares_freshGuid : (freshGuid (σ := σ) env).Spares P :=
  K.Spares.lift fun p _ w v => by cases p <;> rfl

theorem spares_isoNow : (isoNow (σ := σ) env).Spares P :=
  K.Spares.lift fun p _ w v => by cases p <;> rfl

theorem spares_makeHeader (type : Str) : (makeHeader (σ := σ) env type).Spares P :=
  K.Spares.bind spares_freshGuid fun _ => K.Spares.bind spares_isoNow fun _ => K.Spares.pure _

theorem graft_header {w v : World σ} {p : Part} {c : Chan} (h : p ≠ .header c) :
    ((graft w v p).parent c).header = (w.parent c).header := by
  cases p <;> try rfl
  · rename_i c'
    simp only [graft]
    split <;> rfl
  · rename_i c'
    simp only [graft]
    rw [if_neg fun e => h (by rw [e])]

theorem graft_ids {w v : World σ} {p : Part} {c : Chan} (h : p ≠ .ids c) :
    ((graft w v p).parent c).ids = (w.parent c).ids := by
  cases p <;> try rfl
  · rename_i c'
    simp only [graft]
    rw [if_neg fun e => h (by rw [e])]
  · rename_i c'
    simp only [graft]
    split <;> rfl

theorem spares_parentHeader {c : Chan} (h : ¬ P (.header c)) : (parentHeader (σ := σ) c).Spares P :=
  K.Spares.read fun p hp w v => graft_header fun e => h (e ▸ hp)

theorem spares_parentIds {c : Chan} (h : ¬ P (.ids c)) : (parentIds (σ := σ) c).Spares P :=
  K.Spares.read fun p hp w v => graft_ids fun e => h (e ▸ hp)

theorem spares_setParent {c : Chan} (ids : List Str) (header : Json) (h1 : ¬ P (.ids c)) (h2 : ¬ P (.header c)) :
    (setParent (σ := σ) ids header c).Spares P := by
  refine K.Spares.bind (K.Spares.modify fun p hp w v => ?_) fun _ => K.Spares.modify fun p hp w v => ?_
  · have h1' : p ≠ .ids c := fun e => h1 (e ▸ hp)
    have h2' : p ≠ .header c := fun e => h2 (e ▸ hp)
    cases p <;> try rfl
    all_goals
      rename_i c'
      simp only [graft]
      congr 1
      funext x
      by_cases hx : x = c <;> by_cases hx' : x = c' <;> simp [hx, hx'] <;> simp_all
  · have h1' : p ≠ .ids c := fun e => h1 (e ▸ hp)
    have h2' : p ≠ .header c := fun e => h2 (e ▸ hp)
    cases p <;> try rfl
    all_goals
      rename_i c'
      simp only [graft]
      congr 1
      funext x
      by_cases hx : x = c <;> by_cases hx' : x = c' <;> simp [hx, hx'] <;> simp_all

theorem spares_publishMessage (type : Str) (metadata content : Json) (buffers : List Frame) {c : Chan} (h : ¬ P (.header c)) :
    (publishMessage (σ := σ) env type metadata content buffers c).Spares P :=
  K.Spares.bind (spares_makeHeader _) fun _ => K.Spares.bind (spares_parentHeader h) fun _ =>
    K.Spares.bind (spares_logK _) fun _ => K.Spares.bind (K.Spares.ofRes _) fun _ => spares_emit _

theorem spares_sendReplyTo (ids : List Str) (type : Str) (parent metadata content : Json) (c : Chan) :
    (sendReplyTo (σ := σ) env ids type parent metadata content c).Spares P :=
  K.Spares.bind (spares_makeHeader _) fun _ => K.Spares.bind (spares_logK _) fun _ =>
    K.Spares.bind (K.Spares.ofRes _) fun _ => spares_emit _

theorem spares_sendReply (type : Str) (metadata content : Json) {c : Chan} (h1 : ¬ P (.ids c)) (h2 : ¬ P (.header c)) :
    (sendReply (σ := σ) env type metadata content c).Spares P :=
  K.Spares.bind (spares_parentIds h1) fun _ => K.Spares.bind (spares_parentHeader h2) fun _ => spares_sendReplyTo _ _ _ _ _ _

theorem spares_getMetadata : (getMetadata (σ := σ) env).Spares P :=
  K.Spares.bind spares_isoNow fun _ => K.Spares.pure _

/-! ## User code -/

theorem spares_exec {Ω : Type} {sem : Ω → K (World σ) Val} {ok : Ω → Prop} (hu : ¬ P .user) (hs : ∀ o, ok o → (sem o).Spares P)
    (p : Prog σ Ω α) (hp : Calls ok p) : (p.exec sem).Spares P := by
  have hr : (K.read fun w : World σ => w.st).Spares P :=
    K.Spares.read fun p hp w v => by
      have : p ≠ .user := fun e => hu (e ▸ hp)
      cases p <;> first | rfl | exact absurd rfl this
  have hm : ∀ s : σ, (K.modify fun w : World σ => { w with st := s }).Spares P := fun s =>
    K.Spares.modify fun p hp w v => by
      have : p ≠ .user := fun e => hu (e ▸ hp)
      cases p <;> first | rfl | exact absurd rfl this
  induction p with
  | ret a => trivial
  | throw e => trivial
  | ub w => trivial
  | hang => trivial
  | get k ih => exact K.Spares.bind hr fun s => ih s (hp s)
  | set s k ih => exact K.Spares.bind (hm s) fun _ => ih hp
  | call o k ih => exact K.Spares.bind (hs o hp.1).attempt fun r => ih r (hp.2 r)

theorem spares_userCall {Ω : Type} {sem : Ω → K (World σ) Val} {ok : Ω → Prop} (hu : ¬ P .user) (hs : ∀ o, ok o → (sem o).Spares P)
    (k : Call) (p : Prog σ Ω α) (hp : Calls ok p) : (userCall sem k p).Spares P := by
  refine K.Spares.bind (spares_emit _) fun _ => K.Spares.bind (spares_exec hu hs p hp).attempt fun r => ?_
  rcases r with e | a
  · exact K.Spares.bind (spares_emit _) fun _ => trivial
  · trivial

theorem spares_execA {Ω : Type} {sem : Ω → A (World σ) Val} {ok : Ω → Prop} (hu : ¬ P .user) (hs : ∀ o, ok o → (sem o).Spares P)
    (p : Prog σ Ω α) (hp : Calls ok p) : (p.execA sem).Spares P := by
  have hr : (K.read fun w : World σ => w.st).Spares P :=
    K.Spares.read fun p hp w v => by
      have : p ≠ .user := fun e => hu (e ▸ hp)
      cases p <;> first | rfl | exact absurd rfl this
  have hm : ∀ s : σ, (K.modify fun w : World σ => { w with st := s }).Spares P := fun s =>
    K.Spares.modify fun p hp w v => by
      have : p ≠ .user := fun e => hu (e ▸ hp)
      cases p <;> first | rfl | exact absurd rfl this
  induction p with
  | ret a => trivial
  | throw e => trivial
  | ub w => trivial
  | hang => trivial
  | get k ih => exact A.Spares.bind (A.Spares.ofK hr) fun s => ih s (hp s)
  | set s k ih => exact A.Spares.bind (A.Spares.ofK (hm s)) fun _ => ih hp
  | call o k ih => exact A.Spares.bind (hs o hp.1).attempt fun r => ih r (hp.2 r)

theorem spares_userCallA {Ω : Type} {sem : Ω → A (World σ) Val} {ok : Ω → Prop} (hu : ¬ P .user) (hs : ∀ o, ok o → (sem o).Spares P)
    (k : Call) (p : Prog σ Ω α) (hp : Calls ok p) : (userCallA sem k p).Spares P := by
  refine A.Spares.bind (A.Spares.ofK (spares_emit _)) fun _ => A.Spares.bind (spares_execA hu hs p hp).attempt fun r => ?_
  rcases r with e | a
  · exact A.Spares.bind (A.Spares.ofK (spares_emit _)) fun _ => trivial
  · trivial

theorem spares_toShell (j : Json) : (DOp.semA env (.toShell j) : A (World σ) Val).Spares P := by
  refine A.Spares.bind (A.Spares.bind trivial fun _ => A.Spares.bind ?_ fun _ => trivial) fun _ => trivial
  intro r
  cases r <;> trivial

/-! ## What the shell thread does -/

section Shell

/-- Comms, history and so on may be touched. -/
theorem spares_other {f : World σ → Res α × World σ} (h : ∀ p, OfControl p → Untouched p f) : (K.lift f).Spares OfControl :=
  K.Spares.lift h

theorem sps : ¬ OfControl (.ids .shell) := by unfold OfControl; decide
theorem sph : ¬ OfControl (.header .shell) := by unfold OfControl; decide
theorem spu : ¬ OfControl .user := by unfold OfControl; decide

theorem spares_read {f : World σ → α} (h : ∀ (w v : World σ) (c : Chan), f (graft w v (.ids c)) = f w ∧ f (graft w v (.header c)) = f w) :
    (K.read f).Spares OfControl :=
  K.Spares.read fun p hp w v => by
    rcases hp with rfl | rfl
    · exact (h w v _).1
    · exact (h w v _).2

theorem spares_readR {f : World σ → Res α} (h : ∀ (w v : World σ) (c : Chan), f (graft w v (.ids c)) = f w ∧ f (graft w v (.header c)) = f w) :
    (K.readR f).Spares OfControl :=
  K.Spares.readR fun p hp w v => by
    rcases hp with rfl | rfl
    · exact (h w v _).1
    · exact (h w v _).2

theorem spares_modify {f : World σ → World σ} (h : ∀ (w v : World σ) (c : Chan), f (graft w v (.ids c)) = graft (f w) v (.ids c) ∧
    f (graft w v (.header c)) = graft (f w) v (.header c)) : (K.modify f).Spares OfControl :=
  K.Spares.modify fun p hp w v => by
    rcases hp with rfl | rfl
    · exact (h w v _).1
    · exact (h w v _).2

theorem spares_onComms (a : CommAct) (f : Comms → Res (α × Comms)) : (onComms (σ := σ) a f).Spares OfControl := by
  refine K.Spares.lift fun p hp w v => ?_
  rcases hp with rfl | rfl
  all_goals
    simp only [graft]
    cases f w.comm <;> rfl

theorem spares_commOp (o : CommOp) : (commOp (σ := σ) env o).Spares OfControl := by
  refine K.Spares.bind ?_ fun _ => spares_onComms _ _
  unfold commGuid
  split
  · exact spares_freshGuid
  · trivial

theorem spares_recvStdin : (recvStdin (σ := σ)).Spares OfControl := by
  refine K.Spares.lift fun p hp w v => ?_
  rcases hp with rfl | rfl
  all_goals
    obtain ⟨_, _, _, _, _, _, q, q', _, _, _, _⟩ := w
    cases q' <;> rfl

theorem spares_dispatchStdin (q : Multipart) : (dispatchStdin (σ := σ) env q).Spares OfControl :=
  K.Spares.catchStd (K.Spares.bind (K.Spares.ofRes _) fun _ => K.Spares.bind (spares_logK _) fun _ =>
    K.Spares.bind (K.Spares.ofRes _) fun _ => spares_modify fun _ _ _ => ⟨rfl, rfl⟩) fun _ => trivial

theorem spares_blockingInput (prompt : Str) (pwd : Bool) : (blockingInput (σ := σ) env prompt pwd).Spares OfControl := by
  refine K.Spares.bind (spares_modify fun _ _ _ => ⟨rfl, rfl⟩) fun _ => K.Spares.bind ?_ fun _ =>
    K.Spares.bind (spares_read fun _ _ _ => ⟨rfl, rfl⟩) fun _ =>
      K.Spares.bind (spares_modify fun _ _ _ => ⟨rfl, rfl⟩) fun _ => K.Spares.pure _
  exact K.Spares.bind (spares_parentIds sps) fun _ => K.Spares.bind (spares_makeHeader _) fun _ =>
    K.Spares.bind (spares_parentHeader sph) fun _ => K.Spares.bind (spares_logK _) fun _ =>
      K.Spares.bind (K.Spares.ofRes _) fun _ => K.Spares.bind (spares_emit _) fun _ =>
        K.Spares.bind spares_recvStdin fun _ => spares_dispatchStdin _

theorem spares_op (o : Op) : (o.sem env : K (World σ) Val).Spares OfControl := by
  cases o with
  | pub p => exact K.Spares.bind (spares_publishMessage _ _ _ _ sph) fun _ => K.Spares.pure _
  | input prompt pwd => exact K.Spares.bind (spares_blockingInput _ _) fun _ => K.Spares.pure _
  | parentHeader => exact K.Spares.bind (spares_parentHeader sph) fun _ => K.Spares.pure _
  | history q => exact K.Spares.bind (spares_readR fun _ _ _ => ⟨rfl, rfl⟩) fun _ => K.Spares.pure _
  | comm o => exact spares_commOp o
  | commSend k a metadata data buffers =>
    exact K.Spares.bind (spares_readR fun _ _ _ => ⟨rfl, rfl⟩) fun _ =>
      K.Spares.bind (spares_publishMessage _ _ _ _ sph) fun _ => K.Spares.pure _

theorem calls_all {Ω : Type} (p : Prog σ Ω α) : Calls (fun _ => True) p := by
  induction p with
  | ret a => trivial
  | throw e => trivial
  | ub w => trivial
  | hang => trivial
  | get k ih => exact ih
  | set s k ih => exact ih
  | call o k ih => exact ⟨trivial, ih⟩

theorem spares_user (k : Call) (p : Prog σ Op α) : (userCall (Op.sem env) k p).Spares OfControl :=
  spares_userCall spu (fun o _ => spares_op o) k p (calls_all p)

theorem spares_internal (I : Interp σ) (text : Frame) : (dispatchInternal env I text).Spares OfControl :=
  K.Spares.bind (K.Spares.ofRes _) fun _ => K.Spares.bind (spares_exec spu (fun o _ => spares_op o) _ (calls_all _)) fun _ =>
    K.Spares.ofRes _

theorem spares_abortLoop (n : Nat) : (abortLoop (σ := σ) env n).Spares OfControl := by
  induction n with
  | zero => trivial
  | succ n ih =>
    refine K.Spares.bind (K.Spares.lift fun p hp w v => ?_) fun r => ?_
    · rcases hp with rfl | rfl
      all_goals
        obtain ⟨_, _, _, _, _, _, q, q', _, _, _, _⟩ := w
        cases q <;> rfl
    · cases r with
      | none => trivial
      | some q =>
        refine K.Spares.bind ?_ fun _ => ih
        unfold abortRequest
        refine K.Spares.bind (K.Spares.ofRes _).attempt fun r => ?_
        rcases r with e | m
        · simp only
          split <;> trivial
        · exact K.Spares.bind (K.Spares.ofRes _) fun _ => K.Spares.bind (K.Spares.ofRes _) fun _ => spares_sendReplyTo _ _ _ _ _ _

theorem spares_execute (I : Interp σ) (m : XMessage) : (executeRequest env I m .shell).Spares OfControl := by
  refine K.Spares.catchStd ?_ fun _ => trivial
  unfold executeBody
  iterate 7 refine K.Spares.bind (K.Spares.ofRes _) fun _ => ?_
  refine K.Spares.bind spares_getMetadata fun _ => K.Spares.bind ?_ fun _ => K.Spares.bind (K.Spares.ofRes _) fun _ =>
    K.Spares.bind (spares_sendReply _ _ _ sps sph) fun _ => K.Spares.bind ?_ fun _ => ?_
  · refine K.Spares.bind ?_ fun _ => K.Spares.bind (spares_read fun _ _ _ => ⟨rfl, rfl⟩) fun _ => K.Spares.bind (spares_user _ _) fun _ =>
      K.Spares.bind (spares_read fun _ _ _ => ⟨rfl, rfl⟩) fun _ => K.Spares.ofRes _
    unfold announce
    split
    · refine K.Spares.bind (K.Spares.lift fun p hp w v => ?_) fun _ =>
        K.Spares.bind (spares_read fun _ _ _ => ⟨rfl, rfl⟩) fun _ => spares_publishMessage _ _ _ _ sph
      rcases hp with rfl | rfl
      all_goals
        simp only [graft]
        cases intAdd w.count 1 <;> rfl
    · trivial
  · unfold storeK
    split
    · exact spares_modify fun _ _ _ => ⟨rfl, rfl⟩
    · trivial
  · unfold abortK
    split
    · exact K.Spares.bind (spares_read fun _ _ _ => ⟨rfl, rfl⟩) fun _ => spares_abortLoop _
    · trivial

theorem spares_runHandler (I : Interp σ) (h : Option Nat) (m : XMessage) : (runHandler env I h m).Spares OfControl := by
  unfold runHandler
  split
  · trivial
  · exact spares_user _ _

theorem spares_commOpen (I : Interp σ) (m : XMessage) : (commOpen env I m).Spares OfControl := by
  refine K.Spares.bind (spares_onComms _ _) fun r => K.Spares.bind (K.Spares.attempt ?_) fun x =>
    K.Spares.bind (spares_onComms _ _) fun _ => ?_
  · split
    · trivial
    · exact spares_user _ _
  · split <;> trivial

theorem spares_handleShell (I : Interp σ) (r : Req) (m : XMessage) (h : r ≠ .shutdown ∧ r ≠ .interrupt) :
    (handleA env I r m .shell).Spares OfControl := by
  cases r with
  | execute => exact A.Spares.ofK (spares_execute I m)
  | complete =>
    exact A.Spares.ofK (K.Spares.bind (K.Spares.ofRes _) fun _ => K.Spares.bind (K.Spares.ofRes _) fun _ =>
      K.Spares.bind (spares_user _ _) fun _ => spares_sendReply _ _ _ sps sph)
  | inspect =>
    exact A.Spares.ofK (K.Spares.bind (K.Spares.ofRes _) fun _ => K.Spares.bind (K.Spares.ofRes _) fun _ =>
      K.Spares.bind (K.Spares.ofRes _) fun _ => K.Spares.bind (spares_user _ _) fun _ => spares_sendReply _ _ _ sps sph)
  | history =>
    exact A.Spares.ofK (K.Spares.bind (spares_readR fun _ _ _ => ⟨rfl, rfl⟩) fun _ => spares_sendReply _ _ _ sps sph)
  | isComplete =>
    exact A.Spares.ofK (K.Spares.bind (K.Spares.ofRes _) fun _ => K.Spares.bind (spares_user _ _) fun _ =>
      spares_sendReply _ _ _ sps sph)
  | commInfo =>
    exact A.Spares.ofK (K.Spares.bind (K.Spares.ofRes _) fun _ => K.Spares.bind (spares_readR fun _ _ _ => ⟨rfl, rfl⟩) fun _ =>
      spares_sendReply _ _ _ sps sph)
  | commOpen => exact A.Spares.ofK (spares_commOpen I m)
  | commClose =>
    exact A.Spares.ofK (K.Spares.bind (spares_readR fun _ _ _ => ⟨rfl, rfl⟩) fun _ => K.Spares.bind (spares_runHandler I _ m) fun _ =>
      spares_modify fun _ _ _ => ⟨rfl, rfl⟩)
  | commMsg =>
    exact A.Spares.ofK (K.Spares.bind (spares_readR fun _ _ _ => ⟨rfl, rfl⟩) fun _ => spares_runHandler I _ m)
  | kernelInfo =>
    exact A.Spares.ofK (K.Spares.bind (spares_user _ _) fun _ => K.Spares.bind (K.Spares.ofRes _) fun _ =>
      spares_sendReply _ _ _ sps sph)
  | shutdown => exact absurd rfl h.1
  | interrupt => exact absurd rfl h.2
  | debug =>
    show (debugRequestA env I m .shell).Spares OfControl
    unfold debugRequestA
    split
    · trivial
    · refine A.Spares.bind (spares_userCallA spu (ok := fun _ => True) (fun o _ => ?_) _ _ (calls_all _)) fun _ =>
        A.Spares.bind (A.Spares.ofK spares_getMetadata) fun _ => A.Spares.ofK (spares_sendReply _ _ _ sps sph)
      cases o with
      | base o => exact A.Spares.ofK (spares_op o)
      | toShell j => exact spares_toShell j

end Shell

/-! ## What the control thread does -/

/-- The parts the control thread has no business with. -/
def NotControls (p : Part) : Prop := p ≠ .user ∧ ¬ OfControl p

theorem ncs : ¬ NotControls (.ids .control) := by unfold NotControls OfControl; decide
theorem nch : ¬ NotControls (.header .control) := by unfold NotControls OfControl; decide
theorem ncu : ¬ NotControls .user := fun h => h.1 rfl

theorem spares_lone (k : Call) (p : Prog σ Op α) (h : Calls (fun _ => False) p) : (userCall (Op.sem env) k p).Spares NotControls :=
  spares_userCall ncu (fun _ h => h.elim) k p h

theorem spares_handleControl (I : Interp σ) (r : Req) (m : XMessage) (h : Lone I r) :
    (handleA env I r m .control).Spares NotControls := by
  cases r with
  | complete =>
    exact A.Spares.ofK (K.Spares.bind (K.Spares.ofRes _) fun _ => K.Spares.bind (K.Spares.ofRes _) fun _ =>
      K.Spares.bind (spares_lone _ _ (h _ _)) fun _ => spares_sendReply _ _ _ ncs nch)
  | inspect =>
    exact A.Spares.ofK (K.Spares.bind (K.Spares.ofRes _) fun _ => K.Spares.bind (K.Spares.ofRes _) fun _ =>
      K.Spares.bind (K.Spares.ofRes _) fun _ => K.Spares.bind (spares_lone _ _ (h _ _ _)) fun _ => spares_sendReply _ _ _ ncs nch)
  | isComplete =>
    exact A.Spares.ofK (K.Spares.bind (K.Spares.ofRes _) fun _ => K.Spares.bind (spares_lone _ _ (h _)) fun _ =>
      spares_sendReply _ _ _ ncs nch)
  | kernelInfo =>
    exact A.Spares.ofK (K.Spares.bind (spares_lone _ _ h) fun _ => K.Spares.bind (K.Spares.ofRes _) fun _ =>
      spares_sendReply _ _ _ ncs nch)
  | shutdown =>
    exact A.Spares.ofK (K.Spares.bind (K.Spares.ofRes _) fun _ => K.Spares.bind (spares_lone _ _ h) fun _ =>
      K.Spares.bind (spares_emit _) fun _ => K.Spares.bind (spares_publishMessage _ _ _ _ nch) fun _ => spares_sendReply _ _ _ ncs nch)
  | interrupt =>
    exact A.Spares.ofK (K.Spares.bind (spares_publishMessage _ _ _ _ nch) fun _ => spares_sendReply _ _ _ ncs nch)
  | debug =>
    show (debugRequestA env I m .control).Spares NotControls
    unfold debugRequestA
    split
    · trivial
    · rename_i d hd
      refine A.Spares.bind (spares_userCallA ncu (fun o ho => ?_) _ _ (h d hd _ _)) fun _ =>
        A.Spares.bind (A.Spares.ofK spares_getMetadata) fun _ => A.Spares.ofK (spares_sendReply _ _ _ ncs nch)
      obtain ⟨j, rfl⟩ := ho
      exact spares_toShell j
  | _ => exact h.elim

/-! ## Dispatch -/

theorem spares_dispatchA {c : Chan} (h1 : ¬ P (.ids c)) (h2 : ¬ P (.header c)) (I : Interp σ) (q : Multipart)
    (h : ∀ m r, Accepted env.C env.J env.auth q m → IsReq m r → (handleA env I r m c).Spares P) :
    (dispatchA env I q c).Spares P := by
  unfold dispatchA
  rcases deserialize_cases env.C env.J env.auth q with ⟨m, ha, hd⟩ | ⟨_, e, hd, he⟩ | ⟨_, w, hd⟩
  · rw [hd]
    show (dispatchMsgA env I m c).Spares P
    unfold dispatchMsgA
    refine A.Spares.bind (A.Spares.ofK (spares_logK _)) fun _ => A.Spares.bind (A.Spares.ofK (spares_setParent _ _ h1 h2)) fun _ =>
      A.Spares.bind (A.Spares.ofK (spares_publishMessage _ _ _ _ h2)) fun _ => ?_
    cases hv : m.body.header.value (lit "msg_type") Json.getStr [] with
    | ok t =>
      show (handleTypeA env I t m c >>= fun _ => A.ofK (publishStatus env (lit "idle") c)).Spares P
      refine A.Spares.bind ?_ fun _ => A.Spares.ofK (spares_publishMessage _ _ _ _ h2)
      unfold handleTypeA
      split
      · trivial
      · rename_i r hr
        refine A.Spares.catchStd (h m r ha ?_) fun _ => trivial
        rw [IsReq, typeOf_value hv, getHandler_some hr]
    | _ => trivial
  · rw [hd]
    show (if e.isStd then _ else _ : A (World σ) Unit).Spares P
    rw [he]
    trivial
  · rw [hd]
    trivial

/-! ## The servers -/

theorem A.Spares.step {m p : A (World σ) α} {w w' : World σ} (h : m.Spares P) (hs : m.step w = some (p, w')) : p.Spares P := by
  cases m with
  | done r => cases hs
  | ask t k => cases hs
  | act f k =>
    have := Option.some.inj hs
    revert this
    rcases f w with ⟨r, w''⟩
    cases r <;> intro this <;> cases this <;> first | exact h.2 _ | trivial

theorem K.Spares.step {m p : K (World σ) α} {w w' : World σ} (h : m.Spares P) (hs : m.step w = some (p, w')) : p.Spares P := by
  cases m with
  | done r => cases hs
  | act f k =>
    have := Option.some.inj hs
    revert this
    rcases f w with ⟨r, w''⟩
    cases r <;> intro this <;> cases this <;> first | exact h.2 _ | trivial

namespace Duo

/-- What the threads still have to do keeps to their parts. -/
structure Kept (env : Env) (I : Interp σ) (s : Duo σ) : Prop where
  control : ControlLone env I s → s.cprog.Spares NotControls
  shell : ShellPlain env s → s.sprog.Spares OfControl
  inner : ∀ m, s.inner = some m → m.Spares OfControl

theorem ControlLone.mono {I : Interp σ} {s s' : Duo σ} (h : ∀ e, e ∈ s.log → e ∈ s'.log) (hs : ControlLone env I s') :
    ControlLone env I s := fun q m r hq => hs q m r (h _ hq)

theorem ShellPlain.mono {s s' : Duo σ} (h : ∀ e, e ∈ s.log → e ∈ s'.log) (hs : ShellPlain env s') :
    ShellPlain env s := fun q m r hq => hs q m r (h _ hq)

theorem kept_reach {I : Interp σ} {st : Start σ} {s : Duo σ} (h : Reach env I st s) : Kept env I s := by
  induction h with
  | init => exact ⟨fun _ => trivial, fun _ => trivial, fun m hm => by cases hm⟩
  | @step s s' a _ hs ih =>
    have hl : ∀ e, e ∈ s.log → e ∈ s'.log := by
      cases hs <;> intro e he <;> first | exact he | exact List.mem_append_left _ he
    have hc : ControlLone env I s' → s.cprog.Spares NotControls := fun h => ih.control (ControlLone.mono hl h)
    have hp : ShellPlain env s' → s.sprog.Spares OfControl := fun h => ih.shell (ShellPlain.mono hl h)
    cases hs with
    | takeControl _ q r h1 h2 =>
      refine ⟨fun h => ?_, hp, ih.inner⟩
      exact spares_dispatchA ncs nch I q fun m r ha hr => spares_handleControl I r m
        (h q m r (List.mem_append_right _ (List.mem_singleton.2 rfl)) ha hr)
    | workControl _ p w' keep h1 h2 h3 => exact ⟨fun h => (hc h).step h2, hp, ih.inner⟩
    | answer _ text k r h1 h2 h3 h4 =>
      refine ⟨fun h => ?_, hp, ih.inner⟩
      have := hc h
      rw [h3] at this
      exact this _
    | takeShell _ r1 q r h1 h2 =>
      refine ⟨hc, fun h => ?_, ih.inner⟩
      exact spares_dispatchA sps sph I q fun m r ha hr => spares_handleShell I r m
        (h q m r (List.mem_append_right _ (List.mem_singleton.2 rfl)) ha hr)
    | workShell _ r1 p w' keep h1 h2 h3 => exact ⟨hc, fun h => (hp h).step h2, ih.inner⟩
    | recvInternal _ text h1 h2 h3 =>
      refine ⟨hc, hp, fun m hm => ?_⟩
      obtain rfl := Option.some.inj hm
      exact spares_internal I text
    | workInternal _ m p w' keep h1 h2 h3 h4 =>
      refine ⟨hc, hp, fun m' hm => ?_⟩
      obtain rfl := Option.some.inj hm
      exact (ih.inner _ h2).step h3
    | doneInternal _ r h1 h2 => exact ⟨hc, hp, fun m hm => by cases hm⟩
    | _ => exact ⟨hc, hp, ih.inner⟩

end Duo

end Xeus
