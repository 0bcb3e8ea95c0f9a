import Verif.Kernel.InputRuns
import Verif.Kernel.Dispatch
import Verif.Kernel.Internal
import Verif.Kernel.Sample

/-!
# Properties C28–C30: standard input and internal requests
-/

namespace Xeus

open Spec K

variable {σ : Type}

/-! ## C28 -/

/-- C28: a request for input sends one `input_request` with the prompt and the flag to the requester, consumes one stdin
message and returns its value; no handler remains. -/
theorem C28_answer (env : Env) (hs : Sane env) (w : World σ) (hp : ParentsOk w) (prompt : Str) (pwd : Bool)
    (hpr : env.eh = .strict → Utf8 prompt) (q : Multipart) (rest : List Multipart) (hq : w.stdinQ = q :: rest)
    (m : XMessage) (v : Str) (ha : Accepted env.C env.J env.auth q m) (hv : inputValue m.body.content = some v) :
    ∃ e, IsInputRequest env (w.parent .shell) prompt pwd e ∧ ((blockingInput env prompt pwd).run w).1 = .ok v ∧
      Asked w [e] rest none ((blockingInput env prompt pwd).run w).2 := by
  obtain ⟨e, he, _, h⟩ := input_answered hs prompt pwd w (hp .shell) hpr hq
  obtain ⟨h1, h2⟩ := h (accepted_not_undefined ha)
  refine ⟨e, he, ?_, h2⟩
  rw [h1, answerText, accepted_ok _ _ _ _ _ ha]
  simp [hv]

/-- C28: while no stdin message arrives, it waits (the request having been sent). -/
theorem C28_waits (env : Env) (hs : Sane env) (w : World σ) (hp : ParentsOk w) (prompt : Str) (pwd : Bool)
    (hpr : env.eh = .strict → Utf8 prompt) (hq : w.stdinQ = []) :
    ∃ e, IsInputRequest env (w.parent .shell) prompt pwd e ∧ ((blockingInput env prompt pwd).run w).1 = .hang ∧
      Asked w [e] [] (some []) ((blockingInput env prompt pwd).run w).2 :=
  input_blocks hs prompt pwd w (hp .shell) hpr hq

/-- C28, deviation: a prompt that the strict error handler cannot print makes the request throw before anything is
sent, and leaves the handler registered, although the variable it refers to has gone out of scope. -/
theorem C28_handler_remains (env : Env) (hs : Sane env) (w : World σ) (prompt : Str) (pwd : Bool)
    (he : env.eh = .strict) (hpr : ¬ Utf8 prompt) :
    ((blockingInput env prompt pwd).run w).1 = .exc .typeError ∧
      Asked w [] w.stdinQ (some []) ((blockingInput env prompt pwd).run w).2 :=
  input_unprintable hs prompt pwd w he hpr

/-- An answer with a value. -/
example : ∃ q m, Accepted sampleEnv.C sampleEnv.J sampleEnv.auth q m ∧
    inputValue m.body.content = some (lit "42") := by
  obtain ⟨q, hq⟩ := sampleReq_accepted "input_reply" (.obj [(lit "value", .str (lit "42"))]) (by decide) (by decide)
    (by decide +kernel)
  exact ⟨q, _, hq, rfl⟩

example : ¬ Utf8 [0xff] := by rw [← utf8b_iff]; decide

/-! ## C29 -/

/-- C29: a rejected stdin message counts as the empty answer. -/
theorem C29_rejected (env : Env) (hs : Sane env) (w : World σ) (hp : ParentsOk w) (prompt : Str) (pwd : Bool)
    (hpr : env.eh = .strict → Utf8 prompt) (q : Multipart) (rest : List Multipart) (hq : w.stdinQ = q :: rest)
    (hr : Refused env.C env.J env.auth q) :
    ∃ e, IsInputRequest env (w.parent .shell) prompt pwd e ∧ ((blockingInput env prompt pwd).run w).1 = .ok [] ∧
      Asked w [e] rest none ((blockingInput env prompt pwd).run w).2 := by
  obtain ⟨x, hx, _⟩ := refused_exc _ _ _ _ hr
  obtain ⟨e, he, _, h⟩ := input_answered hs prompt pwd w (hp .shell) hpr hq
  obtain ⟨h1, h2⟩ := h fun hu => by
    obtain ⟨s, hs⟩ := undefined_ub env.C _ _ _ hu
    rw [hx] at hs
    simp at hs
  refine ⟨e, he, ?_, h2⟩
  rw [h1, answerText, hx]

/-- C29: so does a message whose content is not an object or whose value is not a text. -/
theorem C29_ill_typed (env : Env) (hs : Sane env) (w : World σ) (hp : ParentsOk w) (prompt : Str) (pwd : Bool)
    (hpr : env.eh = .strict → Utf8 prompt) (q : Multipart) (rest : List Multipart) (hq : w.stdinQ = q :: rest)
    (m : XMessage) (ha : Accepted env.C env.J env.auth q m) (hv : inputValue m.body.content = none) :
    ∃ e, IsInputRequest env (w.parent .shell) prompt pwd e ∧ ((blockingInput env prompt pwd).run w).1 = .ok [] ∧
      Asked w [e] rest none ((blockingInput env prompt pwd).run w).2 := by
  obtain ⟨e, he, _, h⟩ := input_answered hs prompt pwd w (hp .shell) hpr hq
  obtain ⟨h1, h2⟩ := h (accepted_not_undefined ha)
  refine ⟨e, he, ?_, h2⟩
  rw [h1, answerText, accepted_ok _ _ _ _ _ ha]
  simp [hv]

/-- C29: so does a message without value. -/
theorem C29_absent (env : Env) (hs : Sane env) (w : World σ) (hp : ParentsOk w) (prompt : Str) (pwd : Bool)
    (hpr : env.eh = .strict → Utf8 prompt) (q : Multipart) (rest : List Multipart) (hq : w.stdinQ = q :: rest)
    (m : XMessage) (ha : Accepted env.C env.J env.auth q m) (ho : m.body.content.isObj = true)
    (hv : m.body.content.find? (lit "value") = none) :
    ∃ e, IsInputRequest env (w.parent .shell) prompt pwd e ∧ ((blockingInput env prompt pwd).run w).1 = .ok [] ∧
      Asked w [e] rest none ((blockingInput env prompt pwd).run w).2 :=
  C28_answer env hs w hp prompt pwd hpr q rest hq m [] ha (by
    simp only [inputValue, ho, if_true, strField, hv]; rfl)

/-- C29: only multiparts whose decoding is undefined (C03) are an exception. -/
theorem C29_undefined (env : Env) (hs : Sane env) (w : World σ) (hp : ParentsOk w) (prompt : Str) (pwd : Bool)
    (hpr : env.eh = .strict → Utf8 prompt) (q : Multipart) (rest : List Multipart) (hq : w.stdinQ = q :: rest)
    (hu : Undefined env.J env.auth q) : ∃ s, ((blockingInput env prompt pwd).run w).1 = .ub s := by
  obtain ⟨_, _, h, _⟩ := input_answered hs prompt pwd w (hp .shell) hpr hq
  exact h hu

/-- A rejected multipart, an ill-typed value and a content that is not an object. -/
example : Refused sampleEnv.C sampleEnv.J sampleEnv.auth [[1]] ∧
    (∃ q m, Accepted sampleEnv.C sampleEnv.J sampleEnv.auth q m ∧ inputValue m.body.content = none) ∧
    (∃ q m, Accepted sampleEnv.C sampleEnv.J sampleEnv.auth q m ∧ m.body.content = .arr [] ∧
      inputValue m.body.content = none) := by
  obtain ⟨q₁, h₁⟩ := sampleReq_accepted "input_reply" (.obj [(lit "value", .int 3)]) (by decide) (by decide)
    (by decide +kernel)
  obtain ⟨q₂, h₂⟩ := sampleReq_accepted "input_reply" (.arr []) (by decide) (by decide) (by decide +kernel)
  exact ⟨.inl (by decide), ⟨q₁, _, h₁, rfl⟩, q₂, _, h₂, rfl, rfl⟩

/-! ## C30 -/

/-- C30: with the messenger of the simple server, the interpreter is given exactly the JSON value that was sent, and its
answer comes back unchanged, together with all effects of the interpreter and no others. -/
theorem C30_trivial (env : Env) (hs : Sane env) (I : Interp σ) (j : Json) (hj : j.canon = true ∧ JsonUtf8 j) (w : World σ) :
    (∀ rep w', ((I.internal j).exec (Op.sem env)).run w = (.ok rep, w') → rep.canon = true ∧ JsonUtf8 rep →
      (sendToShell env I j).run w = (.ok rep, w')) ∧
    (∀ e w', ((I.internal j).exec (Op.sem env)).run w = (.exc e, w') → (sendToShell env I j).run w = (.exc e, w')) := by
  obtain ⟨s, h1, h2⟩ := hs.codec.roundtrip .strict j hj.1 hj.2
  refine ⟨fun rep w' hr hrep => ?_, fun e w' hr => ?_⟩
  · obtain ⟨s', h3, h4⟩ := hs.codec.roundtrip env.eh rep hrep.1 hrep.2
    simp only [sendToShell, dispatchInternal, Codec.writeZmq, Codec.parseZmq, K.run_bind, K.run_ofRes, h1, h2,
      K.andThen_ok, hr, h3, h4]
  · simp only [sendToShell, dispatchInternal, Codec.writeZmq, Codec.parseZmq, K.run_bind, K.run_ofRes, h1, h2,
      K.andThen_ok, hr, K.andThen_exc]

/-- C30: no JSON value is printed as the word that stops the shell thread. -/
theorem C30_not_stop (env : Env) (hs : Sane env) (j : Json) (hj : j.canon = true) :
    env.J.dump .strict j ≠ some (lit "stop") := by
  intro h
  by_cases hu : JsonUtf8 j
  · obtain ⟨s, h1, h2⟩ := hs.codec.roundtrip .strict j hj hu
    rw [h] at h1
    obtain rfl := Option.some.inj h1
    rw [hs.codec.parse_stop] at h2
    simp at h2
  · rw [hs.codec.dump_strict j hu] at h
    simp at h

/-- C30: the messenger of the split server behaves exactly like that of the simple server, for every JSON value. -/
theorem C30_zmq (env : Env) (hs : Sane env) (I : Interp σ) (j : Json) (hj : j.canon = true) (w : World σ) :
    (sendToShellZmq env I j).run w = (sendToShell env I j).run w := by
  have hne := C30_not_stop env hs j hj
  simp only [sendToShellZmq, sendToShell, Codec.writeZmq, K.run_bind, K.run_ofRes]
  cases hd : env.J.dump .strict j with
  | none => simp only [K.andThen_exc]
  | some s =>
    have : s ≠ lit "stop" := fun h => hne (by rw [hd, h])
    simp only [K.andThen_ok, shellController, this, if_false, K.run_bind, andThen_assoc, K.run_pure]

/-- C30: and never stops the shell thread. -/
theorem C30_goes_on (env : Env) (hs : Sane env) (I : Interp σ) (j : Json) (hj : j.canon = true) (w w' : World σ) :
    (stopsShell env I j).run w ≠ (.ok true, w') := by
  have hne := C30_not_stop env hs j hj
  simp only [stopsShell, Codec.writeZmq, K.run_bind, K.run_ofRes]
  cases hd : env.J.dump .strict j with
  | none => simp
  | some s =>
    have : s ≠ lit "stop" := fun h => hne (by rw [hd, h])
    simp only [K.andThen_ok, shellController, this, if_false, K.run_bind, andThen_assoc, K.run_pure]
    rcases (dispatchInternal env I s).run w with ⟨r, w₂⟩
    cases r <;> simp

/-- The sample interpreter echoes, also the text `stop`. -/
example (w : World Nat) : (sendToShellZmq sampleEnv sampleInterp (.str (lit "stop"))).run w = (.ok (.str (lit "stop")), w) := by
  have hj : (Json.str (lit "stop")).canon = true ∧ JsonUtf8 (.str (lit "stop")) :=
    ⟨by decide, .str (utf8_lit (by decide))⟩
  rw [C30_zmq _ sampleEnv_sane _ _ hj.1]
  exact (C30_trivial _ sampleEnv_sane _ _ hj w).1 _ _ (by
    show (Prog.exec (Op.sem sampleEnv) (.ret (Json.str (lit "stop")))).run w = _
    simp only [Prog.exec, K.run_pure]) hj

end Xeus
