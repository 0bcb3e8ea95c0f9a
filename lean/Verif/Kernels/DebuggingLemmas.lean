import Verif.Kernels.DebuggingSpec
import Verif.Kernel.Props
import Verif.Kernel.Outgoing
import Verif.Server.Answers
import Verif.Kernel.Sessions
import Verif.Kernels.SureDispatch
import Verif.Debugger.Props
import Verif.Debugger.Pages

/-!
# A kernel whose debugger is `xdebugger_base`: lemmas (no property statements here)
-/

namespace Xeus

open Spec K

variable {τ S ρ : Type}

theorem run_asProg {Ω α : Type} (sem : Ω → K (World (τ × S)) Val) (p : K S α) (w : World (τ × S)) :
    ((p.asProg : Prog (τ × S) Ω α).exec sem).run w = ((p.run w.st.2).1, { w with st := (w.st.1, (p.run w.st.2).2) }) := by
  induction p generalizing w with
  | done r => cases r <;> rfl
  | act f k ih =>
    simp only [K.asProg, Prog.exec, K.run_bind, K.run_read, K.andThen_ok, K.run_modify, K.run]
    rcases hf : f w.st.2 with ⟨r, s⟩
    cases r with
    | ok b => simp only [afterAccess, hf]; rw [ih]
    | exc e => simp only [afterAccess, hf]; rw [ih]
    | ub s => rfl
    | hang => rfl

/-! ## What leaves the debugger alone -/

/-- The debugger is in the same state. -/
def Apart (w w' : World (τ × S)) : Prop := w'.st.2 = w.st.2

theorem Apart.pre : Pre (Apart (τ := τ) (S := S)) := ⟨fun _ => rfl, fun h h' => h'.trans h⟩

theorem apart_modify {f : World (τ × S) → World (τ × S)} (h : ∀ w, (f w).st.2 = w.st.2) : Keeps Apart (K.modify f) :=
  Keeps.modify h

theorem apart_emit (e : Ev) : Keeps (Apart (τ := τ) (S := S)) (emit e) := apart_modify fun _ => rfl

theorem apart_makeHeader (env : Env) (t : Str) : Keeps (Apart (τ := τ) (S := S)) (makeHeader env t) :=
  Keeps.bind Apart.pre (Keeps.lift fun _ => rfl) fun _ => Keeps.bind Apart.pre (Keeps.lift fun _ => rfl) fun _ =>
    Keeps.pure Apart.pre _

theorem apart_publish (env : Env) (t : Str) (md ct : Json) (bufs : List Frame) (c : Chan) :
    Keeps (Apart (τ := τ) (S := S)) (publishMessage env t md ct bufs c) :=
  Keeps.bind Apart.pre (apart_makeHeader env _) fun _ => Keeps.bind Apart.pre (Keeps.read Apart.pre _) fun _ =>
    Keeps.bind Apart.pre (Keeps.ofRes Apart.pre _) fun _ => Keeps.bind Apart.pre (Keeps.ofRes Apart.pre _) fun _ => apart_emit _

theorem apart_sendReplyTo (env : Env) (ids : List Str) (t : Str) (par md ct : Json) (c : Chan) :
    Keeps (Apart (τ := τ) (S := S)) (sendReplyTo env ids t par md ct c) :=
  Keeps.bind Apart.pre (apart_makeHeader env _) fun _ => Keeps.bind Apart.pre (Keeps.ofRes Apart.pre _) fun _ =>
    Keeps.bind Apart.pre (Keeps.ofRes Apart.pre _) fun _ => apart_emit _

theorem apart_sendReply (env : Env) (t : Str) (md ct : Json) (c : Chan) :
    Keeps (Apart (τ := τ) (S := S)) (sendReply env t md ct c) :=
  Keeps.bind Apart.pre (Keeps.read Apart.pre _) fun _ => Keeps.bind Apart.pre (Keeps.read Apart.pre _) fun _ =>
    apart_sendReplyTo env _ _ _ _ _ _

theorem apart_dispatchStdin (env : Env) (wire : Multipart) : Keeps (Apart (τ := τ) (S := S)) (dispatchStdin env wire) :=
  Keeps.catchStd Apart.pre (Keeps.bind Apart.pre (Keeps.ofRes Apart.pre _) fun _ => Keeps.bind Apart.pre (Keeps.ofRes Apart.pre _)
    fun _ => Keeps.bind Apart.pre (Keeps.ofRes Apart.pre _) fun _ => apart_modify fun _ => rfl) fun _ => Keeps.pure Apart.pre _

theorem apart_recvStdin : Keeps (Apart (τ := τ) (S := S)) recvStdin := by
  refine Keeps.lift fun w => ?_
  cases h : w.stdinQ <;> rfl

theorem apart_sendStdin (env : Env) (t : Str) (md ct : Json) : Keeps (Apart (τ := τ) (S := S)) (sendStdin env t md ct) :=
  Keeps.bind Apart.pre (Keeps.read Apart.pre _) fun _ => Keeps.bind Apart.pre (apart_makeHeader env _) fun _ =>
    Keeps.bind Apart.pre (Keeps.read Apart.pre _) fun _ => Keeps.bind Apart.pre (Keeps.ofRes Apart.pre _) fun _ =>
    Keeps.bind Apart.pre (Keeps.ofRes Apart.pre _) fun _ => Keeps.bind Apart.pre (apart_emit _) fun _ =>
    Keeps.bind Apart.pre apart_recvStdin fun _ => apart_dispatchStdin env _

theorem apart_blockingInput (env : Env) (prompt : Str) (pwd : Bool) :
    Keeps (Apart (τ := τ) (S := S)) (blockingInput env prompt pwd) :=
  Keeps.bind Apart.pre (apart_modify fun _ => rfl) fun _ => Keeps.bind Apart.pre (apart_sendStdin env _ _ _) fun _ =>
    Keeps.bind Apart.pre (Keeps.read Apart.pre _) fun _ => Keeps.bind Apart.pre (apart_modify fun _ => rfl) fun _ =>
    Keeps.pure Apart.pre _

theorem apart_onComms {α : Type} (act : CommAct) (f : Comms → Res (α × Comms)) :
    Keeps (Apart (τ := τ) (S := S)) (onComms act f) := by
  refine Keeps.lift fun w => ?_
  cases f w.comm <;> rfl

theorem apart_op (env : Env) (o : Op) : Keeps (Apart (τ := τ) (S := S)) (o.sem env) := by
  cases o with
  | pub p => exact Keeps.bind Apart.pre (apart_publish env _ _ _ _ _) fun _ => Keeps.pure Apart.pre _
  | input prompt pwd => exact Keeps.bind Apart.pre (apart_blockingInput env prompt pwd) fun _ => Keeps.pure Apart.pre _
  | parentHeader => exact Keeps.bind Apart.pre (Keeps.read Apart.pre _) fun _ => Keeps.pure Apart.pre _
  | history q => exact Keeps.bind Apart.pre (Keeps.readR Apart.pre _) fun _ => Keeps.pure Apart.pre _
  | comm o =>
    show Keeps Apart (commOp env o)
    unfold commOp
    refine Keeps.bind Apart.pre ?_ fun _ => apart_onComms _ _
    unfold commGuid
    split
    · exact Keeps.lift fun _ => rfl
    · exact Keeps.pure Apart.pre _
  | commSend k a md d bufs =>
    exact Keeps.bind Apart.pre (Keeps.readR Apart.pre _) fun _ => Keeps.bind Apart.pre (apart_publish env _ _ _ _ _) fun _ =>
      Keeps.pure Apart.pre _

theorem apart_beside {Ω α : Type} {sem : Ω → K (World (τ × S)) Val} (hs : ∀ o, Keeps Apart (sem o)) (p : Prog τ Ω α) :
    Keeps Apart (p.beside.exec sem) := by
  induction p with
  | ret a => exact Keeps.pure Apart.pre _
  | throw e => exact Keeps.throw Apart.pre _
  | ub s => exact Keeps.ofRes Apart.pre _
  | hang => exact Keeps.ofRes Apart.pre _
  | get k ih => exact Keeps.bind Apart.pre (Keeps.read Apart.pre _) fun _ => ih _
  | set s k ih =>
    intro w
    simp only [Prog.beside, Prog.exec, K.run_bind, K.run_read, K.andThen_ok, K.run_modify]
    exact Apart.pre.trans (a := w) (b := { w with st := (s, w.st.2) }) rfl (ih _)
  | call o k ih => exact Keeps.bind Apart.pre (hs o).attempt fun _ => ih _

theorem apart_user (env : Env) {α : Type} (k : Call) (p : Prog τ Op α) :
    Keeps (Apart (τ := τ) (S := S)) (userCall (Op.sem env) k p.beside) := by
  refine Keeps.bind Apart.pre (apart_emit _) fun _ => Keeps.bind Apart.pre (apart_beside (apart_op env) p).attempt fun r => ?_
  cases r with
  | ok a => exact Keeps.pure Apart.pre _
  | error e => exact Keeps.bind Apart.pre (apart_emit _) fun _ => Keeps.throw Apart.pre _

variable (env : Env) (I : Interp τ) (d : Dbg.Debugger ρ)

theorem apart_commOpen (m : XMessage) : Keeps Apart (commOpen env (debugKernel I d) m) := by
  refine Keeps.bind Apart.pre (apart_onComms _ _) fun r => Keeps.bind Apart.pre (Keeps.attempt ?_) fun res =>
    Keeps.bind Apart.pre (apart_onComms _ _) fun _ => ?_
  · cases r.2 with
    | none => exact Keeps.throw Apart.pre _
    | some cb => exact apart_user env _ _
  · cases res with
    | ok _ => exact Keeps.pure Apart.pre _
    | error e => exact Keeps.throw Apart.pre _

theorem apart_runHandler (h : Option Nat) (m : XMessage) : Keeps Apart (runHandler env (debugKernel I d) h m) := by
  cases h with
  | none => exact Keeps.pure Apart.pre _
  | some n => exact apart_user env _ _

theorem apart_announce (code : Str) (silent : Bool) : Keeps (Apart (τ := τ) (S := S)) (announce env code silent) := by
  unfold announce
  split
  · refine Keeps.bind Apart.pre (Keeps.lift fun w => ?_) fun _ => Keeps.bind Apart.pre (Keeps.read Apart.pre _) fun _ =>
      apart_publish env _ _ _ _ _
    cases intAdd w.count 1 <;> rfl
  · exact Keeps.pure Apart.pre _

theorem apart_interpExecute (code : Str) (silent store : Bool) (exprs : Json) (allow : Bool) :
    Keeps Apart (interpExecute env (debugKernel I d) code silent store exprs allow) :=
  Keeps.bind Apart.pre (apart_announce env _ _) fun _ => Keeps.bind Apart.pre (Keeps.read Apart.pre _) fun _ =>
    Keeps.bind Apart.pre (apart_user env _ _) fun _ => Keeps.bind Apart.pre (Keeps.read Apart.pre _) fun _ =>
    Keeps.ofRes Apart.pre _

theorem apart_abortRequest (wire : Multipart) : Keeps (Apart (τ := τ) (S := S)) (abortRequest env wire) := by
  refine Keeps.bind Apart.pre (Keeps.ofRes Apart.pre _).attempt fun r => ?_
  cases r with
  | error e =>
    simp only
    split
    · exact Keeps.pure Apart.pre _
    · exact Keeps.throw Apart.pre _
  | ok msg =>
    exact Keeps.bind Apart.pre (Keeps.ofRes Apart.pre _) fun _ => Keeps.bind Apart.pre (Keeps.ofRes Apart.pre _) fun _ =>
      apart_sendReplyTo env _ _ _ _ _ _

theorem apart_abortLoop (n : Nat) : Keeps (Apart (τ := τ) (S := S)) (abortLoop env n) := by
  induction n with
  | zero => exact Keeps.pure Apart.pre _
  | succ n ih =>
    refine Keeps.bind Apart.pre (Keeps.lift fun w => ?_) fun r => ?_
    · cases h : w.shellQ <;> rfl
    · cases r with
      | none => exact Keeps.pure Apart.pre _
      | some wire => exact Keeps.bind Apart.pre (apart_abortRequest env wire) fun _ => ih

theorem apart_storeK (silent store : Bool) (line : Int) (code : Str) :
    Keeps (Apart (τ := τ) (S := S)) (storeK silent store line code) := by
  unfold storeK
  split
  · exact apart_modify fun _ => rfl
  · exact Keeps.pure Apart.pre _

theorem apart_abortK (silent : Bool) (status : Str) (stop : Bool) :
    Keeps (Apart (τ := τ) (S := S)) (abortK env silent status stop) := by
  unfold abortK
  split
  · exact Keeps.bind Apart.pre (Keeps.read Apart.pre _) fun _ => apart_abortLoop env _
  · exact Keeps.pure Apart.pre _

theorem apart_getMetadata : Keeps (Apart (τ := τ) (S := S)) (getMetadata env) :=
  Keeps.bind Apart.pre (Keeps.lift fun _ => rfl) fun _ => Keeps.pure Apart.pre _

theorem apart_handle {r : Req} (hr : r ≠ .debug) (m : XMessage) (c : Chan) : Keeps Apart (handle env (debugKernel I d) r m c) := by
  have hp := Apart.pre (τ := τ) (S := Dbg.State ρ)
  have ofr : ∀ {α β : Type} (x : Res α) (k : α → K (World (τ × Dbg.State ρ)) β), (∀ a, Keeps Apart (k a)) →
      Keeps Apart (K.ofRes x >>= k) := fun x k h => Keeps.bind hp (Keeps.ofRes hp _) h
  cases r with
  | execute =>
    refine Keeps.catchStd hp ?_ fun _ => Keeps.pure hp _
    refine ofr _ _ fun _ => ofr _ _ fun _ => ofr _ _ fun _ => ofr _ _ fun _ => ofr _ _ fun _ => ofr _ _ fun _ => ofr _ _ fun _ => ?_
    exact Keeps.bind hp (apart_getMetadata env) fun _ => Keeps.bind hp (apart_interpExecute env I d _ _ _ _ _) fun _ =>
      ofr _ _ fun _ => Keeps.bind hp (apart_sendReply env _ _ _ _) fun _ => Keeps.bind hp (apart_storeK _ _ _ _) fun _ =>
      apart_abortK env _ _ _
  | complete => exact ofr _ _ fun _ => ofr _ _ fun _ => Keeps.bind hp (apart_user env _ _) fun _ => apart_sendReply env _ _ _ _
  | inspect => exact ofr _ _ fun _ => ofr _ _ fun _ => ofr _ _ fun _ => Keeps.bind hp (apart_user env _ _) fun _ =>
      apart_sendReply env _ _ _ _
  | history => exact Keeps.bind hp (Keeps.readR hp _) fun _ => apart_sendReply env _ _ _ _
  | isComplete => exact ofr _ _ fun _ => Keeps.bind hp (apart_user env _ _) fun _ => apart_sendReply env _ _ _ _
  | commInfo => exact ofr _ _ fun _ => Keeps.bind hp (Keeps.readR hp _) fun _ => apart_sendReply env _ _ _ _
  | commOpen => exact apart_commOpen env I d m
  | commClose => exact Keeps.bind hp (Keeps.readR hp _) fun _ => Keeps.bind hp (apart_runHandler env I d _ m) fun _ =>
      apart_modify fun _ => rfl
  | commMsg => exact Keeps.bind hp (Keeps.readR hp _) fun _ => apart_runHandler env I d _ m
  | kernelInfo => exact Keeps.bind hp (apart_user env _ _) fun _ => ofr _ _ fun _ => apart_sendReply env _ _ _ _
  | shutdown => exact ofr _ _ fun _ => Keeps.bind hp (apart_user env _ _) fun _ =>
      Keeps.bind hp (apart_emit _) fun _ => Keeps.bind hp (apart_publish env _ _ _ _ _) fun _ => apart_sendReply env _ _ _ _
  | interrupt => exact Keeps.bind hp (apart_publish env _ _ _ _ _) fun _ => apart_sendReply env _ _ _ _
  | debug => exact absurd rfl hr


theorem apart_dispatch (q : Multipart) (c : Chan) (hn : ∀ m, Accepted env.C env.J env.auth q m → ¬ IsReq m .debug) :
    Keeps Apart (dispatch env (debugKernel I d) q c) := by
  have hp := Apart.pre (τ := τ) (S := Dbg.State ρ)
  intro w
  rcases deserialize_cases env.C env.J env.auth q with ⟨m, ha, hm⟩ | ⟨hr, _⟩ | ⟨hu, _⟩
  · simp only [dispatch, K.run_bind, K.run_attempt, K.run_ofRes, hm, K.captured_ok, K.andThen_ok]
    refine Keeps.bind hp (Keeps.ofRes hp _) (fun _ => Keeps.bind hp (fun w => ?_) fun _ => Keeps.bind hp (apart_publish env _ _ _ _ _)
      fun _ w => ?_) w
    · rw [run_setParent]; rfl
    rw [K.run_bind, K.run_ofRes]
    cases ht : m.body.header.value (lit "msg_type") Json.getStr [] with
    | ok t =>
      rw [K.andThen_ok]
      refine Keeps.bind hp ?_ (fun _ => apart_publish env _ _ _ _ _) w
      unfold handleType
      cases hh : getHandler t with
      | none => exact Keeps.pure hp _
      | some r =>
        refine Keeps.catchStd hp (apart_handle env I d ?_ m c) fun _ => Keeps.pure hp _
        rintro rfl
        exact hn m ha (getHandler_isReq (typeOf_value ht) hh)
    | exc e => rfl
    | ub s => rfl
    | hang => rfl
  · rw [dispatch_refused _ _ _ hr]; rfl
  · obtain ⟨s, h⟩ := dispatch_undefined (debugKernel I d) c w hu
    rw [h]; rfl

/-! ## Debug requests -/

variable {env d}

theorem served_of {m : XMessage} {c : Chan} {w w₁ : World (τ × Dbg.State ρ)} {s : Dbg.State ρ} {evs : List Ev}
    {x : Res Unit × World (τ × Dbg.State ρ)} (h1 : AtCall env m c w w.count [] (.debug m.body.header m.body.content) w₁)
    (h2 : Concludes env m c { w₁ with st := (w₁.st.1, s) } evs x) : DebugServed env m c w evs s x := by
  obtain ⟨b, hb, ho⟩ := h1.out
  obtain ⟨i, hi, ho'⟩ := h2.out
  refine ⟨h2.ok, by rw [h2.st, h1.st], by rw [h2.count, h1.count], by rw [h2.hist, h1.hist], by rw [h2.comm, h1.comm],
    by rw [h2.shellQ, h1.shellQ], by rw [h2.stdinQ, h1.stdinQ], fun c' hc => by rw [h2.parent]; exact h1.other c' hc, b, i, hb, hi, ?_⟩
  rw [ho', ho]; simp

theorem debug_course' (hs : Sane env) {q : Multipart} {m : XMessage} (c : Chan) (ha : Accepted env.C env.J env.auth q m)
    (hr : IsReq m .debug) (w : World (τ × Dbg.State ρ)) :
    ∃ w₁, AtCall env m c w w.count [] (.debug m.body.header m.body.content) w₁ ∧
      (∀ j s, (Dbg.processRequest d m.body.header m.body.content).run w.st.2 = (.ok j, s) →
        (DebugReplied env m c w j s ((dispatch env (debugKernel I d) q c).run w)) ∨
        (¬ Printable env.eh j ∧ DebugServed env m c w [] s ((dispatch env (debugKernel I d) q c).run w))) ∧
      (∀ e s, (Dbg.processRequest d m.body.header m.body.content).run w.st.2 = (.exc e, s) → e.isStd = true →
        DebugServed env m c w [.threw e] s ((dispatch env (debugKernel I d) q c).run w)) ∧
      (∀ e s, (Dbg.processRequest d m.body.header m.body.content).run w.st.2 = (.exc e, s) → e.isStd = false →
        ((dispatch env (debugKernel I d) q c).run w).1 = .exc e) ∧
      (∀ y s, (Dbg.processRequest d m.body.header m.body.content).run w.st.2 = (.ub y, s) →
        ((dispatch env (debugKernel I d) q c).run w).1 = .ub y) ∧
      (∀ s, (Dbg.processRequest d m.body.header m.body.content).run w.st.2 = (.hang, s) →
        ((dispatch env (debugKernel I d) q c).run w).1 = .hang) := by
  obtain ⟨⟨w₁, h1, hok, hstd, hexc, hub, hhang⟩, _⟩ := C24_debug env hs (debugKernel I d) q m c _ rfl ha hr w
  have run : ∀ r s, (Dbg.processRequest d m.body.header m.body.content).run w.st.2 = (r, s) →
      (((Dbg.processRequest d m.body.header m.body.content).asProg : Prog (τ × Dbg.State ρ) DOp Json).exec
        (DOp.sem env (debugKernel I d))).run w₁ = (r, { w₁ with st := (w₁.st.1, s) }) := by
    intro r s h
    rw [run_asProg, h1.st, h]
  refine ⟨w₁, h1, fun j s h => ?_, fun e s h he => ?_, fun e s h he => ?_, fun y s h => ?_, fun s h => ?_⟩
  · rcases hok j _ (run _ _ h) with ⟨_, md, rep, hmd, hrep, hc⟩ | ⟨hn, hc⟩
    · exact .inl ⟨md, rep, hmd, hrep, served_of h1 hc⟩
    · exact .inr ⟨hn, served_of h1 hc⟩
  · exact served_of h1 (hstd e _ (run _ _ h) he)
  · rw [hexc e _ (run _ _ h) he]
  · rw [hub y _ (run _ _ h)]
  · rw [hhang _ (run _ _ h)]

/-- A debug request that was handled is a step of the debugger. -/
theorem request_step (hs : Sane env) {q : Multipart} {m : XMessage} (c : Chan) (ha : Accepted env.C env.J env.auth q m)
    (hr : IsReq m .debug) {w w' : World (τ × Dbg.State ρ)} (h : (dispatch env (debugKernel I d) q c).run w = (.ok (), w')) :
    ∃ r, (Dbg.runCall d (.request m.body.header m.body.content)).attempt.run w.st.2 = (.ok r, w'.st.2) := by
  obtain ⟨_, _, h1, h2, h3, h4, h5⟩ := debug_course' I hs (d := d) c ha hr w
  simp only [h] at h1 h2 h3 h4 h5
  rcases hp : (Dbg.processRequest d m.body.header m.body.content).run w.st.2 with ⟨r, s⟩
  simp only [Dbg.runCall, K.run_attempt, hp]
  cases r with
  | ok j =>
    rcases h1 j s hp with ⟨_, _, _, _, hd⟩ | ⟨_, hd⟩
    · exact ⟨.ok j, by rw [hd.st]; rfl⟩
    · exact ⟨.ok j, by rw [hd.st]; rfl⟩
  | exc e =>
    cases he : e.isStd with
    | true => exact ⟨.error e, by rw [(h2 e s hp he).st]; rfl⟩
    | false => cases h3 e s hp he
  | ub y => cases h4 y s hp
  | hang => cases h5 s hp

theorem event_attempt {j : Json} {s s' : Dbg.State ρ} {r : Except Exc Unit}
    (h : (Dbg.handleEvent d j).attempt.run s = (.ok r, s')) :
    ∃ r', (Dbg.runCall d (.event j)).attempt.run s = (.ok r', s') := by
  simp only [Dbg.runCall, K.run_attempt, K.run_bind] at h ⊢
  rcases hx : (Dbg.handleEvent d j).run s with ⟨x, s₁⟩
  rw [hx] at h
  cases x with
  | ok u => simp only [K.captured_ok, Prod.mk.injEq] at h; exact ⟨.ok .null, by rw [K.andThen_ok, ← h.2]; rfl⟩
  | exc e => simp only [K.captured_exc, Prod.mk.injEq] at h; exact ⟨.error e, by rw [K.andThen_exc, ← h.2]; rfl⟩
  | ub y => simp at h
  | hang => simp at h

theorem debugged_hist (hs : Sane env) {w₀ w : World (τ × Dbg.State ρ)} {l : List Received} (h : Debugged env I d w₀ l w) :
    ∃ steps, Dbg.Hist d w₀.st.2 steps w.st.2 ∧ DebugCalls env l (steps.map (·.call)) := by
  induction h with
  | start => exact ⟨[], .nil, .nil⟩
  | sockets A B _ ih => exact ih
  | @message l w w' c q _ hd ih =>
    obtain ⟨steps, h1, h2⟩ := ih
    by_cases hx : ∃ m, Accepted env.C env.J env.auth q m ∧ IsReq m .debug
    · obtain ⟨m, ha, hr⟩ := hx
      obtain ⟨r, hr'⟩ := request_step I hs c ha hr hd
      exact ⟨_, .snoc h1 hr', by simpa using .request c h2 ha hr⟩
    · have hn : ∀ m, Accepted env.C env.J env.auth q m → ¬ IsReq m .debug := fun m ha hr => hx ⟨m, ha, hr⟩
      have := apart_dispatch env I d q c hn w
      rw [hd] at this
      refine ⟨steps, ?_, .other c h2 hn⟩
      rw [show w'.st.2 = w.st.2 from this]
      exact h1
  | event m _ hd ih =>
    obtain ⟨steps, h1, h2⟩ := ih
    obtain ⟨r, hr⟩ := event_attempt hd
    exact ⟨_, .snoc h1 hr, by simpa using .event m h2⟩

theorem debugCalls_parsed (hs : Sane env) {l : List Received} {cs : List Dbg.Call} (h : DebugCalls env l cs) :
    ∀ header m, .request header m ∈ cs → Parsed m := by
  induction h with
  | nil => simp
  | request c _ ha hr ih =>
    intro header m hm
    rcases List.mem_append.1 hm with hm | hm
    · exact ih header m hm
    · rw [List.mem_singleton] at hm
      cases hm
      exact (accepted_parsed hs ha).2.2.2
  | other c _ _ ih => exact ih
  | event m _ ih =>
    intro header m' hm
    rcases List.mem_append.1 hm with hm | hm
    · exact ih header m' hm
    · simp at hm

/-! ## The answer to debugInfo can be printed -/

theorem utf8_lookup {kvs : List (Str × Json)} {k : Str} {v : Json} (h2 : ∀ kv ∈ kvs, JsonUtf8 kv.2)
    (hf : Json.lookup k kvs = some v) : JsonUtf8 v := by
  induction kvs with
  | nil => simp [Json.lookup] at hf
  | cons x xs ih =>
    obtain ⟨kx, vx⟩ := x
    simp only [Json.lookup] at hf
    split at hf
    · cases hf; exact h2 _ List.mem_cons_self
    · exact ih (fun y hy => h2 y (List.mem_cons_of_mem _ hy)) hf

theorem Parsed.find {j v : Json} {k : Str} (h : Parsed j) (hf : j.find? k = some v) : Parsed v := by
  refine ⟨Dbg.canon_find h.1 hf, ?_⟩
  obtain ⟨_, h⟩ := h
  cases j <;> simp [Json.find?] at hf
  cases h with
  | obj _ h2 => exact utf8_lookup h2 hf

theorem Parsed.at {j v : Json} {ks : List Str} (ha : Dbg.Spec.At j ks v) (h : Parsed j) : Parsed v := by
  induction ha with
  | here => exact h
  | member hf _ ih => exact ih (Parsed.find h hf)

theorem canonO_snd {kvs : List (Str × Json)} (h : Json.canonO kvs = true) : ∀ kv ∈ kvs, kv.2.canon = true := by
  induction kvs with
  | nil => simp
  | cons x xs ih =>
    obtain ⟨k, v⟩ := x
    simp only [Json.canonO, Bool.and_eq_true] at h
    intro kv hkv
    rcases List.mem_cons.1 hkv with rfl | hkv
    · exact h.1
    · exact ih h.2 kv hkv

theorem Parsed.listed {v : Json} {l : List Json} (hl : Dbg.Spec.Listed v l) (h : Parsed v) : ∀ x ∈ l, Parsed x := by
  cases hl with
  | arr =>
    obtain ⟨h1, h2⟩ := h
    cases h2 with
    | arr h2 => exact fun x hx => ⟨Dbg.canon_elem h1 x hx, h2 x hx⟩
  | @obj kvs =>
    obtain ⟨h1, h2⟩ := h
    cases h2 with
    | obj _ h2 =>
      intro x hx
      obtain ⟨kv, hkv, rfl⟩ := List.mem_map.1 hx
      simp only [Json.canon, Bool.and_eq_true] at h1
      exact ⟨canonO_snd h1.2 kv hkv, h2 kv hkv⟩
  | null => simp
  | bool => intro x hx; rw [List.mem_singleton] at hx; rw [hx]; exact h
  | int => intro x hx; rw [List.mem_singleton] at hx; rw [hx]; exact h
  | float => intro x hx; rw [List.mem_singleton] at hx; rw [hx]; exact h
  | str => intro x hx; rw [List.mem_singleton] at hx; rw [hx]; exact h

theorem parsed_arr {xs : List Json} (h : ∀ x ∈ xs, Parsed x) : Parsed (.arr xs) := by
  refine ⟨?_, .arr fun x hx => (h x hx).2⟩
  have := canonL_map id xs fun a ha => (h a ha).1
  simpa [Json.canon] using this

theorem getInt_range {v : Json} {t : Int} (h : v.getInt = .ok t) : Json.inRange t = true := by
  have key : InInt t → Json.inRange t = true := by
    intro h
    simp only [InInt, intMin, intMax, Json.inRange, Bool.and_eq_true, decide_eq_true_eq] at h ⊢
    omega
  refine key ?_
  cases v with
  | int i => simp only [Json.getInt, Res.ok.injEq] at h; subst h; exact wrap32_range i
  | bool b => cases b <;> (simp only [Json.getInt, Res.ok.injEq] at h; subst h; simp [InInt, intMin, intMax])
  | float b =>
    simp only [Json.getInt] at h
    split at h
    · split at h
      · cases h; assumption
      · cases h
    · cases h
  | null | str _ | arr _ | obj _ => simp [Json.getInt] at h

theorem sortedKeys_null (kvs : List (Str × Json)) : Json.sortedKeys (kvs.map fun x => (x.1, .null)) = Json.sortedKeys kvs := by
  induction kvs with
  | nil => rfl
  | cons x xs ih =>
    cases xs with
    | nil => rfl
    | cons y ys =>
      simp only [List.map_cons, Json.sortedKeys] at ih ⊢
      rw [ih]

/-- The members of an object, each of which came from the wire. -/
theorem parsed_obj {kvs : List (Str × Json)} (hk : Json.sortedKeys (kvs.map fun x => (x.1, .null)) = true)
    (hu : ((kvs.map (·.1)).all fun k => k.all (· ≤ 0x7F)) = true) (h : ∀ kv ∈ kvs, Parsed kv.2) : Parsed (.obj kvs) := by
  rw [sortedKeys_null] at hk
  refine ⟨?_, .obj (fun kv hkv => utf8_ascii ?_) fun kv hkv => (h kv hkv).2⟩
  · simp only [Json.canon, hk, Bool.true_and]
    clear hk hu
    induction kvs with
    | nil => rfl
    | cons x xs ih =>
      obtain ⟨k, v⟩ := x
      simp only [Json.canonO, Bool.and_eq_true]
      exact ⟨(h _ List.mem_cons_self).1, ih fun kv hkv => h kv (List.mem_cons_of_mem _ hkv)⟩
  · have := List.all_eq_true.1 hu kv.1 (List.mem_map_of_mem hkv)
    simpa using this

theorem info_parsed (he : Dbg.Spec.Extends d) {st : ρ} {files : Str → Option Str} {replies acks : List Str} {steps : List Dbg.Step}
    {s : Dbg.State ρ} (h : Dbg.Hist d (Dbg.initial st files replies acks) steps s)
    (hc : ∀ header m, .request header m ∈ steps.map (·.call) → Parsed m) {i : Dbg.Info} (hi : InfoOk i) {seq : Json} (hq : Parsed seq) :
    Parsed (Dbg.infoAnswer i seq s) := by
  have inv := Dbg.hist_records he h
  have str : ∀ {x : Str}, Utf8 x → Parsed (.str x) := fun h => ⟨rfl, .str h⟩
  have bool : ∀ b, Parsed (.bool b) := fun _ => ⟨rfl, .bool⟩
  have entry : ∀ x ∈ s.breakpoints, Parsed (Dbg.breakpointEntry x) := by
    rintro ⟨src, v⟩ hx
    obtain ⟨l, rfl⟩ := inv.arrays src v hx
    obtain ⟨pre, stp, post, rfl, ⟨_, header, m, v, hcall, _, _, hpath, hbs, hl⟩, _⟩ :=
      (inv.bps src l).1 ((Dbg.mem_iff_lookup inv.sorted _ _).1 hx)
    have hm : Parsed m := hc header m (by simp [hcall])
    refine parsed_obj (by simp only [List.map_cons, List.map_nil]; decide +kernel)
      (by simp only [List.map_cons, List.map_nil]; decide +kernel) ?_
    intro kv hkv
    simp only [List.mem_cons, List.not_mem_nil, or_false] at hkv
    rcases hkv with rfl | rfl
    · exact parsed_arr (Parsed.listed hl (Parsed.at hbs hm))
    · exact Parsed.at hpath hm
  have bps : ∀ x ∈ (if s.started then s.breakpoints.map Dbg.breakpointEntry else []), Parsed x := by
    intro x hx
    split at hx
    · obtain ⟨y, hy, rfl⟩ := List.mem_map.1 hx
      exact entry y hy
    · cases hx
  have thr : ∀ x ∈ s.threads.map Json.int, Parsed x := by
    intro x hx
    obtain ⟨t, ht, rfl⟩ := List.mem_map.1 hx
    obtain ⟨pre, stp, post, _, ⟨m, v, _, _, _, hv⟩, _⟩ := (inv.thr t).1 ht
    exact ⟨getInt_range hv, .int⟩
  refine parsed_obj (by simp only [List.map_cons, List.map_nil]; decide +kernel)
    (by simp only [List.map_cons, List.map_nil]; decide +kernel) ?_
  intro kv hkv
  simp only [List.mem_cons, List.not_mem_nil, or_false] at hkv
  rcases hkv with rfl | rfl | rfl | rfl | rfl
  · refine parsed_obj (by simp only [List.map_cons, List.map_nil]; decide +kernel)
      (by simp only [List.map_cons, List.map_nil]; decide +kernel) ?_
    intro kv hkv
    simp only [List.mem_cons, List.not_mem_nil, or_false] at hkv
    rcases hkv with rfl | rfl | rfl | rfl | rfl | rfl | rfl | rfl | rfl
    · exact parsed_arr bps
    · refine parsed_arr fun x hx => ?_
      obtain ⟨p, hp, rfl⟩ := List.mem_map.1 hx
      exact str (hi.paths p hp)
    · exact str (utf8_lit (by decide +kernel))
    · refine ⟨?_, .int⟩
      have := hi.seed
      simp only [Json.canon, Json.inRange, Bool.and_eq_true, decide_eq_true_eq]
      omega
    · exact bool _
    · exact bool _
    · exact parsed_arr thr
    · exact str hi.pre
    · exact str hi.suf
  · exact str (utf8_lit (by decide +kernel))
  · exact hq
  · exact bool _
  · exact str (utf8_lit (by decide +kernel))

end Xeus
