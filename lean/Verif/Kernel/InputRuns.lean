import Verif.Kernel.User
import Verif.Kernel.InputSpec

/-!
# Runs of requests for input (no property statements here)
-/

namespace Xeus

open Spec K

variable {σ : Type}

theorem promptContent (prompt : Str) (pwd : Bool) :
    (Json.put .null (lit "prompt") (.str prompt)).put (lit "pwd") (.bool pwd) =
      .obj [(lit "prompt", .str prompt), (lit "pwd", .bool pwd)] := by
  simp only [Json.put]
  simp only [Json.insertKV]
  simp (decide := true) only [if_false]

theorem promptContent_printable {eh : ErrH} {prompt : Str} (pwd : Bool) (h : eh = .strict → Utf8 prompt) :
    Printable eh (.obj [(lit "prompt", .str prompt), (lit "pwd", .bool pwd)]) := by
  refine ⟨by simp (decide := true) [Json.canon, Json.sortedKeys, Json.canonO], fun he => .obj ?_ ?_⟩
  · intro kv hkv
    simp only [List.mem_cons, List.not_mem_nil, or_false] at hkv
    rcases hkv with rfl | rfl <;> exact utf8_lit (by decide)
  · intro kv hkv
    simp only [List.mem_cons, List.not_mem_nil, or_false] at hkv
    rcases hkv with rfl | rfl
    · exact .str (h he)
    · exact .bool

/-- The message asking for input, in the state in which it is built. -/
def inputAt (env : Env) (w : World σ) (prompt : Str) (pwd : Bool) : XMessage :=
  replyAt env w (w.parent .shell).ids (lit "input_request") (w.parent .shell).header (.obj [])
    (.obj [(lit "prompt", .str prompt), (lit "pwd", .bool pwd)])

theorem inputAt_is (env : Env) (w : World σ) (prompt : Str) (pwd : Bool) (wire : Multipart) :
    IsInputRequest env (w.parent .shell) prompt pwd (.stdin (inputAt env w prompt pwd) wire) :=
  ⟨_, _, rfl, rfl, rfl, hdrAt_wf env w _, rfl, rfl, rfl⟩

theorem andThen_assoc {S α β γ : Type} (x : Res α × S) (f : α → S → Res β × S) (g : β → S → Res γ × S) :
    K.andThen (K.andThen x f) g = K.andThen x fun a s => K.andThen (f a s) g := by
  obtain ⟨r, s⟩ := x
  cases r
  · simp only [K.andThen_ok]
  · simp only [K.andThen_exc]
  · simp only [K.andThen_ub]
  · simp only [K.andThen_hang]

theorem run_blockingInput {env : Env} (hl : ∀ e, env.log e = .ok ()) (prompt : Str) (pwd : Bool) (w : World σ) :
    (blockingInput env prompt pwd).run w =
      K.andThen (serialize env.C env.J env.auth env.eh (inputAt env w prompt pwd), { tick w with input := some [] })
        fun wire w' =>
      K.andThen (recvStdin.run { w' with out := w'.out ++ [.stdin (inputAt env w prompt pwd) wire] }) fun a w' =>
      K.andThen ((dispatchStdin env a).run w') fun _ w' => (.ok (w'.input.getD []), { w' with input := none }) := by
  simp only [blockingInput, K.run_bind, K.run_modify, K.andThen_ok, promptContent, run_sendStdin, hl, K.run_read,
    K.run_pure]
  show K.andThen (K.andThen (serialize env.C env.J env.auth env.eh (inputAt env w prompt pwd),
    { tick w with input := some [] }) _) _ = _
  simp only [andThen_assoc]
  rfl

theorem dispatchStdin_refused {env : Env} {q : Multipart} (hq : Refused env.C env.J env.auth q) (w : World σ) :
    (dispatchStdin env q).run w = (.ok (), w) := by
  obtain ⟨e, he, hstd⟩ := refused_exc _ _ _ _ hq
  simp only [dispatchStdin, K.catchStd, K.run_bind, K.run_attempt, K.run_ofRes, he, K.andThen_exc, K.captured_exc,
    K.andThen_ok, hstd, if_true, K.run_pure]

theorem dispatchStdin_undefined {env : Env} {q : Multipart} (hq : Undefined env.J env.auth q) (w : World σ) :
    ∃ s, (dispatchStdin env q).run w = (.ub s, w) := by
  obtain ⟨s, he⟩ := undefined_ub env.C _ _ _ hq
  exact ⟨s, by simp only [dispatchStdin, K.catchStd, K.run_bind, K.run_attempt, K.run_ofRes, he, K.andThen_ub,
    K.captured_ub]⟩

theorem inputValue_some {c : Json} {v : Str} (h : inputValue c = some v) :
    c.value (lit "value") Json.getStr [] = .ok v := by
  unfold inputValue at h
  split at h
  · rename_i ho; exact strField_value ho h
  · simp at h

theorem inputValue_none {c : Json} (h : inputValue c = none) :
    c.value (lit "value") Json.getStr [] = .exc .typeError := by
  unfold inputValue at h
  split at h
  · rename_i ho; exact strField_none ho h
  · rename_i ho
    cases c <;> simp [Json.isObj] at ho <;> rfl

theorem dispatchStdin_accepted {env : Env} (hl : ∀ e, env.log e = .ok ()) {q : Multipart} {m : XMessage}
    (hq : Accepted env.C env.J env.auth q m) (w : World σ) :
    (dispatchStdin env q).run w = (.ok (), match inputValue m.body.content with
      | some v => { w with input := w.input.map fun _ => v }
      | none => w) := by
  have he := accepted_ok _ _ _ _ _ hq
  cases h : inputValue m.body.content with
  | some v =>
    simp only [dispatchStdin, K.catchStd, K.run_bind, K.run_attempt, K.run_ofRes, he, K.andThen_ok, run_logK, hl,
      inputValue_some h, inputReply, K.run_modify, K.captured_ok, K.run_pure]
  | none =>
    have hstd : Exc.isStd .typeError = true := rfl
    simp only [dispatchStdin, K.catchStd, K.run_bind, K.run_attempt, K.run_ofRes, he, K.andThen_ok, run_logK, hl,
      inputValue_none h, K.andThen_exc, K.captured_exc, hstd, if_true, K.run_pure]

/-- The text returned for a stdin message that is not undefined. -/
def answerText (env : Env) (q : Multipart) : Str :=
  match deserialize env.C env.J env.auth q with
  | .ok m => (inputValue m.body.content).getD []
  | _ => []

theorem input_answered {env : Env} (hs : Sane env) (prompt : Str) (pwd : Bool) (w : World σ)
    (hp : Parsed (w.parent .shell).header) (hpr : env.eh = .strict → Utf8 prompt) {q : Multipart} {rest : List Multipart}
    (hq : w.stdinQ = q :: rest) :
    ∃ e, IsInputRequest env (w.parent .shell) prompt pwd e ∧
      (Undefined env.J env.auth q → ∃ s, ((blockingInput env prompt pwd).run w).1 = .ub s) ∧
      (¬ Undefined env.J env.auth q → ((blockingInput env prompt pwd).run w).1 = .ok (answerText env q) ∧
        Asked w [e] rest none ((blockingInput env prompt pwd).run w).2) := by
  obtain ⟨wire, hw⟩ := serialize_ok (C := env.C) hs.codec env.auth (eh := env.eh) (m := inputAt env w prompt pwd)
    (hdrAt_printable hs w fun _ => utf8_lit (by decide)) (Parsed.printable hp env.eh) (emptyObj_printable _)
    (promptContent_printable pwd hpr)
  refine ⟨_, inputAt_is env w prompt pwd wire, ?_⟩
  rw [run_blockingInput hs.log, hw, K.andThen_ok]
  simp only [recvStdin, K.run_lift]
  have hq' : (tick w).stdinQ = q :: rest := hq
  simp only [hq', K.andThen_ok]
  refine ⟨fun hu => ?_, fun hu => ?_⟩
  · obtain ⟨s, h⟩ := dispatchStdin_undefined hu _
    exact ⟨s, by rw [h, K.andThen_ub]⟩
  · rcases trichotomy env.C env.J env.auth q with ⟨m, hm⟩ | hr | hu'
    · rw [dispatchStdin_accepted hs.log hm, K.andThen_ok]
      unfold answerText
      rw [accepted_ok _ _ _ _ _ hm]
      simp only
      cases inputValue m.body.content <;> exact ⟨rfl, rfl, rfl, rfl, rfl, rfl, rfl, rfl, rfl, rfl⟩
    · rw [dispatchStdin_refused hr, K.andThen_ok]
      obtain ⟨e, he, _⟩ := refused_exc _ _ _ _ hr
      unfold answerText
      rw [he]
      exact ⟨rfl, rfl, rfl, rfl, rfl, rfl, rfl, rfl, rfl, rfl⟩
    · exact absurd hu' hu

theorem input_blocks {env : Env} (hs : Sane env) (prompt : Str) (pwd : Bool) (w : World σ)
    (hp : Parsed (w.parent .shell).header) (hpr : env.eh = .strict → Utf8 prompt) (hq : w.stdinQ = []) :
    ∃ e, IsInputRequest env (w.parent .shell) prompt pwd e ∧ ((blockingInput env prompt pwd).run w).1 = .hang ∧
      Asked w [e] [] (some []) ((blockingInput env prompt pwd).run w).2 := by
  obtain ⟨wire, hw⟩ := serialize_ok (C := env.C) hs.codec env.auth (eh := env.eh) (m := inputAt env w prompt pwd)
    (hdrAt_printable hs w fun _ => utf8_lit (by decide)) (Parsed.printable hp env.eh) (emptyObj_printable _)
    (promptContent_printable pwd hpr)
  refine ⟨_, inputAt_is env w prompt pwd wire, ?_⟩
  rw [run_blockingInput hs.log, hw, K.andThen_ok]
  simp only [recvStdin, K.run_lift]
  have hq' : (tick w).stdinQ = [] := hq
  simp only [hq', K.andThen_hang, true_and]
  exact ⟨rfl, rfl, rfl, rfl, rfl, rfl, rfl, rfl, rfl⟩

theorem serialize_unprintable {C : Crypto} {K : Codec} (hK : LawfulCodec K) {a : Auth} {m : XMessage}
    (h : ¬ JsonUtf8 m.body.content) : serialize C K a .strict m = .exc .typeError := by
  have hd := hK.dump_strict _ h
  rcases serialize_cases C K a .strict m with ⟨w, hw⟩ | hw
  · exfalso
    simp only [serialize, serializeBase, Codec.writeZmq, hd, Res.bind_eq_ok] at hw
    obtain ⟨_, ⟨_, _, _, _, _, _, _, h, _⟩, _⟩ := hw
    simp at h
  · exact hw

theorem input_unprintable {env : Env} (hs : Sane env) (prompt : Str) (pwd : Bool) (w : World σ)
    (he : env.eh = .strict) (hpr : ¬ Utf8 prompt) :
    ((blockingInput env prompt pwd).run w).1 = .exc .typeError ∧
      Asked w [] w.stdinQ (some []) ((blockingInput env prompt pwd).run w).2 := by
  have hw : serialize env.C env.J env.auth .strict (inputAt env w prompt pwd) = .exc .typeError := by
    refine serialize_unprintable hs.codec fun h => hpr ?_
    cases h with
    | obj _ hv =>
      have := hv (lit "prompt", .str prompt) (by simp)
      cases this with
      | str h => exact h
  rw [run_blockingInput hs.log, he, hw, K.andThen_exc]
  exact ⟨rfl, by simp [tick], rfl, rfl, rfl, rfl, rfl, rfl, rfl, rfl⟩

end Xeus
