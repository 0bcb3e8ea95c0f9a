import Verif.Kernel.Frame

/-!
# What user code can do to the kernel (no property statements here)
-/

namespace Xeus

open Spec K

variable {σ : Type}

/-- Types of the messages that user code can publish. -/
def userTypes : List Str :=
  [lit "stream", lit "display_data", lit "update_display_data", lit "execute_input", lit "execute_result",
   lit "error", lit "clear_output", lit "comm_open", lit "comm_close", lit "comm_msg"]

/-- Events user code can cause, given the remembered parents. -/
inductive UEv (env : Env) (par : Chan → Parent) : Ev → Prop
  | pub {m wire t} : t ∈ userTypes → WfHeader env t m.body.header →
      m.body.parent = (par .shell).header → UEv env par (.pub .shell m wire)
  | stdin {m wire} : m.ids = (par .shell).ids → m.body.parent = (par .shell).header →
      WfHeader env (lit "input_request") m.body.header → UEv env par (.stdin m wire)

/-- What user code leaves unchanged, and how it extends the trace. -/
structure URel (env : Env) (w w' : World σ) : Prop where
  parent : w'.parent = w.parent
  count : w'.count = w.count
  hist : w'.hist = w.hist
  shellQ : w'.shellQ = w.shellQ
  stdinQ : ∃ used, w.stdinQ = used ++ w'.stdinQ
  out : ∃ es, w'.out = w.out ++ es ∧ ∀ e ∈ es, UEv env w.parent e

theorem URel.pre (env : Env) : Pre (URel (σ := σ) env) where
  refl w := ⟨rfl, rfl, rfl, rfl, ⟨[], rfl⟩, ⟨[], by simp, by simp⟩⟩
  trans {a b c} h₁ h₂ := by
    obtain ⟨u₁, hu₁⟩ := h₁.stdinQ
    obtain ⟨u₂, hu₂⟩ := h₂.stdinQ
    obtain ⟨e₁, he₁, hp₁⟩ := h₁.out
    obtain ⟨e₂, he₂, hp₂⟩ := h₂.out
    refine ⟨h₂.parent.trans h₁.parent, h₂.count.trans h₁.count, h₂.hist.trans h₁.hist,
      h₂.shellQ.trans h₁.shellQ, ⟨u₁ ++ u₂, by rw [hu₁, hu₂, List.append_assoc]⟩,
      ⟨e₁ ++ e₂, by rw [he₂, he₁, List.append_assoc], ?_⟩⟩
    intro e he
    rcases List.mem_append.mp he with he | he
    · exact hp₁ e he
    · have := hp₂ e he
      rwa [h₁.parent] at this

/-- A state change that touches none of the observed fields. -/
theorem URel.silent {env : Env} {w w' : World σ} (h1 : w'.parent = w.parent) (h2 : w'.count = w.count)
    (h3 : w'.hist = w.hist) (h4 : w'.shellQ = w.shellQ) (h5 : w'.stdinQ = w.stdinQ) (h6 : w'.out = w.out) :
    URel env w w' := ⟨h1, h2, h3, h4, ⟨[], by rw [h5]; rfl⟩, ⟨[], by simp [h6], by simp⟩⟩

theorem keeps_freshGuid (env : Env) : Keeps (URel (σ := σ) env) (freshGuid env) :=
  Keeps.lift fun _ => URel.silent rfl rfl rfl rfl rfl rfl

theorem keeps_publish {env : Env} (hl : ∀ e, env.log e = .ok ()) {t : Str} (ht : t ∈ userTypes)
    (md ct : Json) (bufs : List Frame) : Keeps (URel (σ := σ) env) (publishMessage env t md ct bufs .shell) := by
  intro w
  rcases publishMessage_cases hl t md ct bufs .shell w with ⟨wire, _, h⟩ | h
  · rw [h]
    refine ⟨rfl, rfl, rfl, rfl, ⟨[], rfl⟩, ⟨_, rfl, ?_⟩⟩
    intro e he
    obtain rfl := List.mem_singleton.mp he
    exact .pub ht (hdrAt_wf env w t) rfl
  · rw [h]; exact URel.silent rfl rfl rfl rfl rfl rfl

theorem keeps_dispatchStdin (env : Env) (wire : Multipart) :
    Keeps (URel (σ := σ) env) (dispatchStdin env wire) := by
  have hp := URel.pre (σ := σ) env
  refine Keeps.catchStd hp ?_ fun _ => Keeps.pure hp _
  refine Keeps.bind hp (Keeps.ofRes hp _) fun _ => ?_
  refine Keeps.bind hp (Keeps.ofRes hp _) fun _ => ?_
  refine Keeps.bind hp (Keeps.ofRes hp _) fun _ => ?_
  exact Keeps.modify fun _ => URel.silent rfl rfl rfl rfl rfl rfl

theorem keeps_recvStdin (env : Env) : Keeps (URel (σ := σ) env) recvStdin := by
  refine Keeps.lift fun w => ?_
  cases h : w.stdinQ with
  | nil => exact (URel.pre env).refl w
  | cons f r => exact ⟨rfl, rfl, rfl, rfl, ⟨[f], by simpa using h⟩, ⟨[], by simp, by simp⟩⟩

/-- Run of `sendStdin` up to the receive. -/
theorem run_sendStdin (env : Env) (t : Str) (md ct : Json) (w : World σ) :
    (sendStdin env t md ct).run w =
      let m := replyAt env w (w.parent .shell).ids t (w.parent .shell).header md ct
      K.andThen (env.log (.sent none m), tick w) fun _ w' =>
      K.andThen (serialize env.C env.J env.auth env.eh m, w') fun wire w' =>
      K.andThen (recvStdin.run { w' with out := w'.out ++ [.stdin m wire] }) fun a w' =>
      (dispatchStdin env a).run w' := by
  simp only [sendStdin, K.run_bind, run_makeHeader, K.andThen_ok, run_parentIds, run_parentHeader, run_logK,
    K.run_ofRes, run_emit, replyAt, tick]

theorem keeps_sendStdin {env : Env} (hl : ∀ e, env.log e = .ok ()) (md ct : Json) :
    Keeps (URel (σ := σ) env) (sendStdin env (lit "input_request") md ct) := by
  intro w
  rw [run_sendStdin]
  simp only [hl, K.andThen_ok]
  generalize hm : replyAt env w (w.parent .shell).ids (lit "input_request") (w.parent .shell).header md ct = m
  have hp := URel.pre (σ := σ) env
  rcases serialize_cases env.C env.J env.auth env.eh m with ⟨wire, hw⟩ | hw
  · rw [hw, K.andThen_ok]
    have h1 : URel env w { tick w with out := (tick w).out ++ [.stdin m wire] } := by
      refine ⟨rfl, rfl, rfl, rfl, ⟨[], rfl⟩, ⟨_, rfl, ?_⟩⟩
      intro e he
      obtain rfl := List.mem_singleton.mp he
      subst hm
      exact .stdin rfl rfl (hdrAt_wf env w _)
    refine hp.trans h1 ?_
    have := Keeps.bind hp (keeps_recvStdin (σ := σ) env) (fun a => keeps_dispatchStdin env a)
      { tick w with out := (tick w).out ++ [.stdin m wire] }
    rwa [K.run_bind] at this
  · rw [hw, K.andThen_exc]; exact URel.silent rfl rfl rfl rfl rfl rfl

theorem keeps_blockingInput {env : Env} (hl : ∀ e, env.log e = .ok ()) (prompt : Str) (pwd : Bool) :
    Keeps (URel (σ := σ) env) (blockingInput env prompt pwd) := by
  have hp := URel.pre (σ := σ) env
  refine Keeps.bind hp (Keeps.modify fun _ => URel.silent rfl rfl rfl rfl rfl rfl) fun _ => ?_
  refine Keeps.bind hp (keeps_sendStdin hl _ _) fun _ => ?_
  refine Keeps.bind hp (Keeps.read hp _) fun _ => ?_
  exact Keeps.bind hp (Keeps.modify fun _ => URel.silent rfl rfl rfl rfl rfl rfl) fun _ => Keeps.pure hp _

theorem PubOp.type_mem (p : PubOp) : p.type ∈ userTypes := by
  cases p <;> simp [PubOp.type, userTypes]

theorem CommMsg.type_mem (k : CommMsg) : k.type ∈ userTypes := by
  cases k <;> simp [CommMsg.type, userTypes]

theorem outgoing_type {s : Comms} {a : Nat} {k : CommMsg} {d : Json} {r : Str × Json}
    (h : s.outgoing a k d = .ok r) : r.1 = k.type := by
  simp only [Comms.outgoing, Res.bind_eq_ok] at h
  obtain ⟨_, _, _, _, h⟩ := h
  split at h <;> simp at h
  rw [← h]

theorem keeps_onComms {env : Env} {α : Type} (act : CommAct) (f : Comms → Res (α × Comms)) :
    Keeps (URel (σ := σ) env) (onComms act f) := by
  refine Keeps.lift fun w => ?_
  cases f w.comm <;> exact URel.silent rfl rfl rfl rfl rfl rfl

theorem keeps_publishOp {env : Env} (hl : ∀ e, env.log e = .ok ()) (p : PubOp) :
    Keeps (URel (σ := σ) env) (publishOp env p) := keeps_publish hl p.type_mem _ _ _

theorem keeps_op {env : Env} (hl : ∀ e, env.log e = .ok ()) (o : Op) :
    Keeps (URel (σ := σ) env) (o.sem env) := by
  have hp := URel.pre (σ := σ) env
  cases o with
  | pub p => exact Keeps.bind hp (keeps_publishOp hl p) fun _ => Keeps.pure hp _
  | input prompt pwd => exact Keeps.bind hp (keeps_blockingInput hl prompt pwd) fun _ => Keeps.pure hp _
  | parentHeader => exact Keeps.bind hp (Keeps.read hp _) fun _ => Keeps.pure hp _
  | history q => exact Keeps.bind hp (Keeps.readR hp _) fun _ => Keeps.pure hp _
  | comm o =>
    show Keeps (URel env) (commOp env o)
    unfold commOp
    refine Keeps.bind hp ?_ fun _ => keeps_onComms _ _
    unfold commGuid
    split
    · exact keeps_freshGuid env
    · exact Keeps.pure hp _
  | commSend k a md d bufs =>
    intro w
    simp only [Op.sem, K.run_bind, K.run_readR]
    cases h : w.comm.outgoing a k d with
    | ok r =>
      simp only [K.andThen_ok]
      have := Keeps.bind hp (keeps_publish (σ := σ) hl (t := r.1) (by rw [outgoing_type h]; exact k.type_mem) md r.2 bufs)
        (fun _ => Keeps.pure hp Val.unit) w
      rwa [K.run_bind] at this
    | exc e => simp only [K.andThen_exc]; exact hp.refl w
    | ub e => simp only [K.andThen_ub]; exact hp.refl w
    | hang => simp only [K.andThen_hang]; exact hp.refl w

/-- Programs keep what their operations and their own state changes keep. -/
theorem keeps_exec {R : World σ → World σ → Prop} (hR : Pre R) (hset : ∀ w s, R w { w with st := s })
    {Ω α : Type} {sem : Ω → K (World σ) Val} (hs : ∀ o, Keeps R (sem o)) (p : Prog σ Ω α) :
    Keeps R (p.exec sem) := by
  induction p with
  | ret a => exact Keeps.pure hR a
  | throw e => exact Keeps.throw hR e
  | ub w => exact Keeps.ofRes hR _
  | hang => exact Keeps.ofRes hR _
  | get k ih => exact Keeps.bind hR (Keeps.read hR _) fun s => ih s
  | set s k ih => exact Keeps.bind hR (Keeps.modify fun w => hset w s) fun _ => ih
  | call o k ih => exact Keeps.bind hR (hs o).attempt fun r => ih r

theorem keeps_user {env : Env} (hl : ∀ e, env.log e = .ok ()) {α : Type} (p : Prog σ Op α) :
    Keeps (URel env) (p.exec (Op.sem env)) :=
  keeps_exec (URel.pre env) (fun _ _ => URel.silent rfl rfl rfl rfl rfl rfl) (keeps_op hl) p

theorem keeps_sendToShell {env : Env} (hl : ∀ e, env.log e = .ok ()) (I : Interp σ) (j : Json) :
    Keeps (URel env) (sendToShell env I j) := by
  have hp := URel.pre (σ := σ) env
  refine Keeps.bind hp (Keeps.ofRes hp _) fun _ => ?_
  refine Keeps.bind hp ?_ fun _ => Keeps.ofRes hp _
  refine Keeps.bind hp (Keeps.ofRes hp _) fun _ => ?_
  exact Keeps.bind hp (keeps_user hl _) fun _ => Keeps.ofRes hp _

theorem keeps_debugger {env : Env} (hl : ∀ e, env.log e = .ok ()) (I : Interp σ) {α : Type}
    (p : Prog σ DOp α) : Keeps (URel env) (p.exec (DOp.sem env I)) := by
  have hp := URel.pre (σ := σ) env
  refine keeps_exec hp (fun _ _ => URel.silent rfl rfl rfl rfl rfl rfl) (fun o => ?_) p
  cases o with
  | base o => exact keeps_op hl o
  | toShell j => exact Keeps.bind hp (keeps_sendToShell hl I j) fun _ => Keeps.pure hp _

end Xeus
