import Verif.Kernel.User
import Verif.Kernel.OutSpec

/-!
# All messages are made in the same way (no property statements here)
-/

namespace Xeus

open Spec K

variable {σ : Type}

/-- The identities remembered for the two channels contain no delimiter. -/
def IdsOk (w : World σ) : Prop := ∀ c, delim ∉ (w.parent c).ids

/-- The messages among `es` carry the GUIDs `ns`. -/
inductive MadeAll (env : Env) : List Nat → List Ev → Prop
  | nil : MadeAll env [] []
  | skip {e ns es} : messagesIn [e] = [] → MadeAll env ns es → MadeAll env ns (e :: es)
  | msg {n e ns es} : messagesIn [e] = [e] → Emitted env n e → MadeAll env ns es → MadeAll env (n :: ns) (e :: es)

theorem MadeAll.append {env : Env} {ns ms : List Nat} {es fs : List Ev} (h : MadeAll env ns es) (h' : MadeAll env ms fs) :
    MadeAll env (ns ++ ms) (es ++ fs) := by
  induction h with
  | nil => exact h'
  | skip he _ ih => exact .skip he ih
  | msg he hm _ ih => exact .msg he hm ih

/-- How a program extends the trace: with messages made as they should, with increasing GUIDs. -/
def Made (env : Env) (w w' : World σ) : Prop :=
  IdsOk w → IdsOk w' ∧ w.guids ≤ w'.guids ∧ ∃ es ns, w'.out = w.out ++ es ∧ MadeAll env ns es ∧
    ns.Pairwise (· < ·) ∧ ∀ n ∈ ns, w.guids ≤ n ∧ n < w'.guids

theorem Made.pre (env : Env) : Pre (Made (σ := σ) env) where
  refl w h := ⟨h, Nat.le_refl _, [], [], by simp, .nil, .nil, by simp⟩
  trans {a b c} h₁ h₂ ha := by
    obtain ⟨hb, l₁, e₁, n₁, o₁, m₁, p₁, r₁⟩ := h₁ ha
    obtain ⟨hc, l₂, e₂, n₂, o₂, m₂, p₂, r₂⟩ := h₂ hb
    refine ⟨hc, Nat.le_trans l₁ l₂, e₁ ++ e₂, n₁ ++ n₂, by rw [o₂, o₁, List.append_assoc], m₁.append m₂, ?_, ?_⟩
    · refine List.pairwise_append.2 ⟨p₁, p₂, fun x hx y hy => ?_⟩
      exact Nat.lt_of_lt_of_le (r₁ x hx).2 (r₂ y hy).1
    · intro n hn
      rcases List.mem_append.mp hn with hn | hn
      · exact ⟨(r₁ n hn).1, Nat.lt_of_lt_of_le (r₁ n hn).2 l₂⟩
      · exact ⟨Nat.le_trans l₁ (r₂ n hn).1, (r₂ n hn).2⟩

/-- A state change that neither sends nor touches the remembered requests. -/
theorem Made.silent {env : Env} {w w' : World σ} (h1 : w'.parent = w.parent) (h2 : w.guids ≤ w'.guids)
    (h3 : w'.out = w.out) : Made env w w' := fun h =>
  ⟨fun c => by rw [h1]; exact h c, h2, [], [], by simp [h3], .nil, .nil, by simp⟩

theorem Made.one {env : Env} {w w' : World σ} {e : Ev} (h1 : w'.parent = w.parent) (h2 : w'.guids = w.guids + 1)
    (h3 : w'.out = w.out ++ [e]) (h4 : messagesIn [e] = [e]) (h5 : IdsOk w → Emitted env w.guids e) : Made env w w' := fun h =>
  ⟨fun c => by rw [h1]; exact h c, by omega, [e], [w.guids], h3, .msg h4 (h5 h) .nil, by simp, by simp; omega⟩

theorem Made.mark {env : Env} {w w' : World σ} {e : Ev} (h1 : w'.parent = w.parent) (h2 : w'.guids = w.guids)
    (h3 : w'.out = w.out ++ [e]) (h4 : messagesIn [e] = []) : Made env w w' := fun h =>
  ⟨fun c => by rw [h1]; exact h c, by omega, [e], [], h3, .skip h4 .nil, .nil, by simp⟩

theorem made_publish (env : Env) (t : Str) (md ct : Json) (bufs : List Frame) (c : Chan) :
    Keeps (Made (σ := σ) env) (publishMessage env t md ct bufs c) := by
  intro w
  rw [run_publishMessage]
  have ht : Made env w (tick w) := Made.silent rfl (Nat.le_succ _) rfl
  cases env.log (.iopub (pubAt env w t md ct bufs c)) with
  | ok _ =>
    rw [K.andThen_ok]
    cases hw : serializePub env.C env.J env.auth env.eh (pubAt env w t md ct bufs c) with
    | ok wire =>
      rw [K.andThen_ok]
      exact Made.one rfl rfl rfl rfl fun _ => ⟨_, t, .inl ⟨_, _, _, rfl, rfl, rfl, hw⟩⟩
    | exc e => rw [K.andThen_exc]; exact ht
    | ub s => rw [K.andThen_ub]; exact ht
    | hang => rw [K.andThen_hang]; exact ht
  | exc e => rw [K.andThen_exc]; exact ht
  | ub s => rw [K.andThen_ub]; exact ht
  | hang => rw [K.andThen_hang]; exact ht

theorem made_sendReplyTo (env : Env) {ids : List Str} (t : Str) (par md ct : Json) (c : Chan) (w : World σ)
    (hi : IdsOk w → delim ∉ ids) : Made env w ((sendReplyTo env ids t par md ct c).run w).2 := by
  rw [run_sendReplyTo]
  have ht : Made env w (tick w) := Made.silent rfl (Nat.le_succ _) rfl
  cases env.log (.sent (some c) (replyAt env w ids t par md ct)) with
  | ok _ =>
    rw [K.andThen_ok]
    cases hw : serialize env.C env.J env.auth env.eh (replyAt env w ids t par md ct) with
    | ok wire =>
      rw [K.andThen_ok]
      exact Made.one rfl rfl rfl rfl fun h => ⟨_, t, .inr ⟨_, _, .inl ⟨c, rfl⟩, hi h, rfl, hw⟩⟩
    | exc e => rw [K.andThen_exc]; exact ht
    | ub s => rw [K.andThen_ub]; exact ht
    | hang => rw [K.andThen_hang]; exact ht
  | exc e => rw [K.andThen_exc]; exact ht
  | ub s => rw [K.andThen_ub]; exact ht
  | hang => rw [K.andThen_hang]; exact ht

theorem made_sendReply (env : Env) (t : Str) (md ct : Json) (c : Chan) :
    Keeps (Made (σ := σ) env) (sendReply env t md ct c) := by
  intro w
  rw [run_sendReply]
  exact made_sendReplyTo env t _ md ct c w fun h => h c

theorem made_dispatchStdin (env : Env) (wire : Multipart) : Keeps (Made (σ := σ) env) (dispatchStdin env wire) := by
  have hp := Made.pre (σ := σ) env
  refine Keeps.catchStd hp ?_ fun _ => Keeps.pure hp _
  refine Keeps.bind hp (Keeps.ofRes hp _) fun _ => ?_
  refine Keeps.bind hp (Keeps.ofRes hp _) fun _ => ?_
  refine Keeps.bind hp (Keeps.ofRes hp _) fun _ => ?_
  exact Keeps.modify fun _ => Made.silent rfl (Nat.le_refl _) rfl

theorem made_recvStdin (env : Env) : Keeps (Made (σ := σ) env) recvStdin := by
  refine Keeps.lift fun w => ?_
  cases h : w.stdinQ with
  | nil => exact (Made.pre env).refl w
  | cons f r => exact Made.silent rfl (Nat.le_refl _) rfl

theorem made_sendStdin (env : Env) (t : Str) (md ct : Json) : Keeps (Made (σ := σ) env) (sendStdin env t md ct) := by
  intro w
  rw [run_sendStdin]
  simp only
  generalize hm : replyAt env w (w.parent .shell).ids t (w.parent .shell).header md ct = m
  have hp := Made.pre (σ := σ) env
  have ht : Made env w (tick w) := Made.silent rfl (Nat.le_succ _) rfl
  cases env.log (.sent none m) with
  | ok _ =>
    rw [K.andThen_ok]
    cases hw : serialize env.C env.J env.auth env.eh m with
    | ok wire =>
      rw [K.andThen_ok]
      have h1 : Made env w { tick w with out := (tick w).out ++ [.stdin m wire] } :=
        Made.one rfl rfl rfl rfl fun h => ⟨env.now w.clocks, t, .inr ⟨m, wire, .inr rfl, by
          rw [← hm]; exact h .shell, by rw [← hm]; rfl, hw⟩⟩
      refine hp.trans h1 ?_
      have := Keeps.bind hp (made_recvStdin (σ := σ) env) (fun a => made_dispatchStdin env a)
        { tick w with out := (tick w).out ++ [.stdin m wire] }
      rwa [K.run_bind] at this
    | exc e => rw [K.andThen_exc]; exact ht
    | ub s => rw [K.andThen_ub]; exact ht
    | hang => rw [K.andThen_hang]; exact ht
  | exc e => rw [K.andThen_exc]; exact ht
  | ub s => rw [K.andThen_ub]; exact ht
  | hang => rw [K.andThen_hang]; exact ht

theorem made_blockingInput (env : Env) (prompt : Str) (pwd : Bool) :
    Keeps (Made (σ := σ) env) (blockingInput env prompt pwd) := by
  have hp := Made.pre (σ := σ) env
  refine Keeps.bind hp (Keeps.modify fun _ => Made.silent rfl (Nat.le_refl _) rfl) fun _ => ?_
  refine Keeps.bind hp (made_sendStdin env _ _ _) fun _ => ?_
  refine Keeps.bind hp (Keeps.read hp _) fun _ => ?_
  exact Keeps.bind hp (Keeps.modify fun _ => Made.silent rfl (Nat.le_refl _) rfl) fun _ => Keeps.pure hp _

theorem made_onComms (env : Env) {α : Type} (act : CommAct) (f : Comms → Res (α × Comms)) :
    Keeps (Made (σ := σ) env) (onComms act f) := by
  refine Keeps.lift fun w => ?_
  cases f w.comm <;> exact Made.silent rfl (Nat.le_refl _) rfl

theorem made_op (env : Env) (o : Op) : Keeps (Made (σ := σ) env) (o.sem env) := by
  have hp := Made.pre (σ := σ) env
  cases o with
  | pub p => exact Keeps.bind hp (made_publish env _ _ _ _ _) fun _ => Keeps.pure hp _
  | input prompt pwd => exact Keeps.bind hp (made_blockingInput env prompt pwd) fun _ => Keeps.pure hp _
  | parentHeader => exact Keeps.bind hp (Keeps.read hp _) fun _ => Keeps.pure hp _
  | history q => exact Keeps.bind hp (Keeps.readR hp _) fun _ => Keeps.pure hp _
  | comm o =>
    show Keeps (Made env) (commOp env o)
    unfold commOp
    refine Keeps.bind hp ?_ fun _ => made_onComms env _ _
    unfold commGuid
    split
    · exact Keeps.lift fun _ => Made.silent rfl (Nat.le_succ _) rfl
    · exact Keeps.pure hp _
  | commSend k a md d bufs =>
    exact Keeps.bind hp (Keeps.readR hp _) fun _ => Keeps.bind hp (made_publish env _ _ _ _ _) fun _ => Keeps.pure hp _

theorem made_user (env : Env) {α : Type} (p : Prog σ Op α) : Keeps (Made env) (p.exec (Op.sem env)) :=
  keeps_exec (Made.pre env) (fun _ _ => Made.silent rfl (Nat.le_refl _) rfl) (made_op env) p

theorem made_sendToShell (env : Env) (I : Interp σ) (j : Json) : Keeps (Made env) (sendToShell env I j) := by
  have hp := Made.pre (σ := σ) env
  refine Keeps.bind hp (Keeps.ofRes hp _) fun _ => ?_
  refine Keeps.bind hp ?_ fun _ => Keeps.ofRes hp _
  refine Keeps.bind hp (Keeps.ofRes hp _) fun _ => ?_
  exact Keeps.bind hp (made_user env _) fun _ => Keeps.ofRes hp _

theorem made_debugger (env : Env) (I : Interp σ) {α : Type} (p : Prog σ DOp α) :
    Keeps (Made env) (p.exec (DOp.sem env I)) := by
  have hp := Made.pre (σ := σ) env
  refine keeps_exec hp (fun _ _ => Made.silent rfl (Nat.le_refl _) rfl) (fun o => ?_) p
  cases o with
  | base o => exact made_op env o
  | toShell j => exact Keeps.bind hp (made_sendToShell env I j) fun _ => Keeps.pure hp _

theorem made_mark (env : Env) {e : Ev} (h : messagesIn [e] = []) : Keeps (Made (σ := σ) env) (emit e) :=
  Keeps.modify fun _ => Made.mark rfl rfl rfl h

theorem made_userCall (env : Env) {Ω α : Type} {sem : Ω → K (World σ) Val} {p : Prog σ Ω α}
    (h : Keeps (Made env) (p.exec sem)) (k : Call) : Keeps (Made env) (userCall sem k p) := by
  have hp := Made.pre (σ := σ) env
  refine Keeps.bind hp (made_mark env rfl) fun _ => Keeps.bind hp h.attempt fun r => ?_
  cases r with
  | ok a => exact Keeps.pure hp _
  | error e => exact Keeps.bind hp (made_mark env rfl) fun _ => Keeps.throw hp _

theorem made_commOpen (env : Env) (I : Interp σ) (m : XMessage) : Keeps (Made env) (commOpen env I m) := by
  have hp := Made.pre (σ := σ) env
  refine Keeps.bind hp (made_onComms env _ _) fun r => Keeps.bind hp (Keeps.attempt ?_) fun res =>
    Keeps.bind hp (made_onComms env _ _) fun _ => ?_
  · cases r.2 with
    | none => exact Keeps.throw hp _
    | some cb => exact made_userCall env (made_user env _) _
  · cases res with
    | ok _ => exact Keeps.pure hp _
    | error e => exact Keeps.throw hp _

theorem made_runHandler (env : Env) (I : Interp σ) (h : Option Nat) (m : XMessage) :
    Keeps (Made env) (runHandler env I h m) := by
  cases h with
  | none => exact Keeps.pure (Made.pre env) _
  | some n => exact made_userCall env (made_user env _) _

theorem made_incCount (env : Env) : Keeps (Made (σ := σ) env) incCount := by
  refine Keeps.lift fun w => ?_
  cases intAdd w.count 1 <;> exact Made.silent rfl (Nat.le_refl _) rfl

theorem made_announce (env : Env) (code : Str) (silent : Bool) : Keeps (Made (σ := σ) env) (announce env code silent) := by
  have hp := Made.pre (σ := σ) env
  unfold announce
  split
  · exact Keeps.bind hp (made_incCount env) fun _ => Keeps.bind hp (Keeps.read hp _) fun _ => made_publish env _ _ _ _ _
  · exact Keeps.pure hp _

theorem made_interpExecute (env : Env) (I : Interp σ) (code : Str) (silent store : Bool) (exprs : Json) (allow : Bool) :
    Keeps (Made env) (interpExecute env I code silent store exprs allow) := by
  have hp := Made.pre (σ := σ) env
  exact Keeps.bind hp (made_announce env _ _) fun _ => Keeps.bind hp (Keeps.read hp _) fun _ =>
    Keeps.bind hp (made_userCall env (made_user env _) _) fun _ => Keeps.bind hp (Keeps.read hp _) fun _ => Keeps.ofRes hp _

theorem deserialize_ids {C : Crypto} {J : Codec} {a : Auth} {q : Multipart} {m : XMessage}
    (h : deserialize C J a q = .ok m) : delim ∉ m.ids := by
  rcases trichotomy C J a q with ⟨m', ha⟩ | hr | hu
  · have := accepted_ok _ _ _ _ _ ha
    rw [h] at this
    obtain rfl := Res.ok.inj this
    obtain ⟨sig, h, p, md, c, hs, _⟩ := ha
    exact hs.2
  · obtain ⟨e, he, _⟩ := refused_exc _ _ _ _ hr
    rw [h] at he; simp at he
  · obtain ⟨s, he⟩ := undefined_ub C _ _ _ hu
    rw [h] at he; simp at he

theorem made_abortRequest (env : Env) (wire : Multipart) : Keeps (Made (σ := σ) env) (abortRequest env wire) := by
  have hp := Made.pre (σ := σ) env
  intro w
  unfold abortRequest
  simp only [K.run_bind, K.run_attempt, K.run_ofRes]
  cases hd : deserialize env.C env.J env.auth wire with
  | ok msg =>
    simp only [K.captured_ok, K.andThen_ok]
    have h2 : Keeps (Made env) (K.ofRes (msg.body.header.value (lit "msg_type") Json.getStr []) >>= fun t =>
        K.ofRes (abortName t) >>= fun t => sendReplyTo (σ := σ) env msg.ids t msg.body.header (.obj [])
          (Json.put .null (lit "status") (.str (lit "error"))) .shell) :=
      Keeps.bind hp (Keeps.ofRes hp _) fun _ => Keeps.bind hp (Keeps.ofRes hp _) fun _ w =>
        made_sendReplyTo env _ _ _ _ _ w fun _ => deserialize_ids hd
    have := h2 w
    simpa only [K.run_bind, K.run_ofRes] using this
  | exc e =>
    simp only [K.captured_exc, K.andThen_ok]
    split
    · simp only [K.run_pure]; exact hp.refl w
    · simp only [K.run_throw]; exact hp.refl w
  | ub s => simp only [K.captured_ub, K.andThen_ub]; exact hp.refl w
  | hang => simp only [K.captured_hang, K.andThen_hang]; exact hp.refl w

theorem made_recvShell (env : Env) : Keeps (Made (σ := σ) env) recvShell := by
  refine Keeps.lift fun w => ?_
  cases h : w.shellQ with
  | nil => exact (Made.pre env).refl w
  | cons f r => exact Made.silent rfl (Nat.le_refl _) rfl

theorem made_abortLoop (env : Env) (n : Nat) : Keeps (Made (σ := σ) env) (abortLoop env n) := by
  have hp := Made.pre (σ := σ) env
  induction n with
  | zero => exact Keeps.pure hp _
  | succ n ih =>
    refine Keeps.bind hp (made_recvShell env) fun r => ?_
    cases r with
    | none => exact Keeps.pure hp _
    | some wire => exact Keeps.bind hp (made_abortRequest env wire) fun _ => ih

theorem made_storeK (env : Env) (silent store : Bool) (line : Int) (code : Str) :
    Keeps (Made (σ := σ) env) (storeK silent store line code) := by
  unfold storeK
  split
  · exact Keeps.modify fun _ => Made.silent rfl (Nat.le_refl _) rfl
  · exact Keeps.pure (Made.pre env) _

theorem made_abortK (env : Env) (silent : Bool) (status : Str) (stop : Bool) :
    Keeps (Made (σ := σ) env) (abortK env silent status stop) := by
  have hp := Made.pre (σ := σ) env
  unfold abortK
  split
  · exact Keeps.bind hp (Keeps.read hp _) fun _ => made_abortLoop env _
  · exact Keeps.pure hp _

theorem made_getMetadata (env : Env) : Keeps (Made (σ := σ) env) (getMetadata env) := by
  have hp := Made.pre (σ := σ) env
  exact Keeps.bind hp (Keeps.lift fun _ => Made.silent rfl (Nat.le_refl _) rfl) fun _ => Keeps.pure hp _

theorem made_handle (env : Env) (I : Interp σ) (r : Req) (m : XMessage) (c : Chan) :
    Keeps (Made env) (handle env I r m c) := by
  have hp := Made.pre (σ := σ) env
  have ofr : ∀ {α β : Type} (x : Res α) (k : α → K (World σ) β), (∀ a, Keeps (Made env) (k a)) →
      Keeps (Made env) (K.ofRes x >>= k) := fun x k h => Keeps.bind hp (Keeps.ofRes hp _) h
  cases r with
  | execute =>
    refine Keeps.catchStd hp ?_ fun _ => Keeps.pure hp _
    refine ofr _ _ fun _ => ofr _ _ fun _ => ofr _ _ fun _ => ofr _ _ fun _ => ofr _ _ fun _ => ofr _ _ fun _ => ofr _ _ fun _ => ?_
    refine Keeps.bind hp (made_getMetadata env) fun _ => Keeps.bind hp (made_interpExecute env I _ _ _ _ _) fun _ =>
      ofr _ _ fun _ => Keeps.bind hp (made_sendReply env _ _ _ _) fun _ => Keeps.bind hp (made_storeK env _ _ _ _) fun _ =>
      made_abortK env _ _ _
  | complete => exact ofr _ _ fun _ => ofr _ _ fun _ => Keeps.bind hp (made_userCall env (made_user env _) _) fun _ =>
      made_sendReply env _ _ _ _
  | inspect => exact ofr _ _ fun _ => ofr _ _ fun _ => ofr _ _ fun _ =>
      Keeps.bind hp (made_userCall env (made_user env _) _) fun _ => made_sendReply env _ _ _ _
  | history => exact Keeps.bind hp (Keeps.readR hp _) fun _ => made_sendReply env _ _ _ _
  | isComplete => exact ofr _ _ fun _ => Keeps.bind hp (made_userCall env (made_user env _) _) fun _ =>
      made_sendReply env _ _ _ _
  | commInfo => exact ofr _ _ fun _ => Keeps.bind hp (Keeps.readR hp _) fun _ => made_sendReply env _ _ _ _
  | commOpen => exact made_commOpen env I m
  | commClose => exact Keeps.bind hp (Keeps.readR hp _) fun _ => Keeps.bind hp (made_runHandler env I _ m) fun _ =>
      Keeps.modify fun _ => Made.silent rfl (Nat.le_refl _) rfl
  | commMsg => exact Keeps.bind hp (Keeps.readR hp _) fun _ => made_runHandler env I _ m
  | kernelInfo => exact Keeps.bind hp (made_userCall env (made_user env _) _) fun _ => ofr _ _ fun _ =>
      made_sendReply env _ _ _ _
  | shutdown => exact ofr _ _ fun _ => Keeps.bind hp (made_userCall env (made_user env _) _) fun _ =>
      Keeps.bind hp (made_mark env rfl) fun _ => Keeps.bind hp (made_publish env _ _ _ _ _) fun _ =>
      made_sendReply env _ _ _ _
  | interrupt => exact Keeps.bind hp (made_publish env _ _ _ _ _) fun _ => made_sendReply env _ _ _ _
  | debug =>
    show Keeps (Made env) (debugRequest env I m c)
    unfold debugRequest
    cases I.debug with
    | none => exact Keeps.pure hp _
    | some d => exact Keeps.bind hp (made_userCall env (made_debugger env I _) _) fun _ =>
        Keeps.bind hp (made_getMetadata env) fun _ => made_sendReply env _ _ _ _

theorem made_dispatch (env : Env) (I : Interp σ) (q : Multipart) (c : Chan) : Keeps (Made env) (dispatch env I q c) := by
  have hp := Made.pre (σ := σ) env
  intro w
  unfold dispatch
  simp only [K.run_bind, K.run_attempt, K.run_ofRes]
  cases hd : deserialize env.C env.J env.auth q with
  | ok m =>
    simp only [K.captured_ok, K.andThen_ok]
    refine Keeps.bind hp (Keeps.ofRes hp _) (fun _ => Keeps.bind hp ?_ fun _ => Keeps.bind hp (made_publish env _ _ _ _ _)
      fun _ => Keeps.bind hp (Keeps.ofRes hp _) fun t => Keeps.bind hp ?_ fun _ => made_publish env _ _ _ _ _) w
    · intro w h
      rw [run_setParent]
      refine ⟨fun c' => ?_, Nat.le_refl _, [], [], by simp, .nil, .nil, by simp⟩
      show delim ∉ (if c' = c then (⟨m.ids, m.body.header⟩ : Parent) else w.parent c').ids
      split
      · exact deserialize_ids hd
      · exact h c'
    · unfold handleType
      cases getHandler t with
      | none => exact Keeps.pure hp _
      | some r => exact Keeps.catchStd hp (made_handle env I r m c) fun _ => Keeps.pure hp _
  | exc e =>
    simp only [K.captured_exc, K.andThen_ok]
    split
    · simp only [K.run_pure]; exact hp.refl w
    · simp only [K.run_throw]; exact hp.refl w
  | ub s => simp only [K.captured_ub, K.andThen_ub]; exact hp.refl w
  | hang => simp only [K.captured_hang, K.andThen_hang]; exact hp.refl w

theorem made_session (env : Env) (I : Interp σ) (xs : List (Multipart × Chan)) : Keeps (Made env) (session env I xs) := by
  induction xs with
  | nil => exact Keeps.pure (Made.pre env) _
  | cons x r ih => exact Keeps.bind (Made.pre env) (made_dispatch env I x.1 x.2) fun _ => ih

theorem made_start (env : Env) : Keeps (Made (σ := σ) env) (start env) := by
  intro w
  simp only [start, K.run_bind, run_makeHeader, K.andThen_ok, K.run_ofRes]
  have ht : Made env w (tick w) := Made.silent rfl (Nat.le_succ _) rfl
  cases hw : serializePub env.C env.J env.auth env.eh ⟨lit "kernel_core." ++ env.kernelId ++ lit ".status",
      ⟨hdrAt env w (lit "status"), .obj [], .obj [], Json.put .null (lit "execution_state") (.str (lit "starting")), []⟩⟩ with
  | ok wire =>
    simp only [K.andThen_ok, run_emit]
    refine Made.one rfl rfl rfl rfl fun _ => ⟨_, lit "status", .inl ⟨_, _, _, rfl, ?_, rfl, hw⟩⟩
    rw [List.append_assoc (lit "kernel_core." ++ env.kernelId)]; rfl
  | exc e => simp only [K.andThen_exc]; exact ht
  | ub s => simp only [K.andThen_ub]; exact ht
  | hang => simp only [K.andThen_hang]; exact ht

theorem MadeAll.messages {env : Env} {ns : List Nat} {es : List Ev} (h : MadeAll env ns es) :
    Paired (Emitted env) ns (messagesIn es) := by
  have app : ∀ e es, messagesIn (e :: es) = messagesIn [e] ++ messagesIn es := by
    intro e es; cases e <;> rfl
  induction h with
  | nil => exact .nil
  | skip he _ ih => rw [app, he]; exact ih
  | msg he hm _ ih => rw [app, he]; exact .cons hm ih

end Xeus
