import Verif.Protocol.Props

/-!
# C112: the kernels that come with the library and the messaging protocol
-/

namespace Xeus

open Spec Protocol Kernels

namespace Protocol

/-- The types of messages whose contents the interpreter of the example does not make as the protocol requires. -/
def demoWrong : List Str := [lit "kernel_info_reply", lit "complete_reply", lit "inspect_reply"]

/-- The same for the interpreter of the test kernel. -/
def testWrong : List Str := [lit "kernel_info_reply", lit "complete_reply", lit "execute_result", lit "is_complete_reply"]

theorem obeys_say {α : Type} {ok : Op → Prop} {Q : α → Prop} {p : PubOp} {k : Prog Unit Op α} (hp : ok (.pub p)) (hk : Obeys ok Q k) :
    Obeys ok Q (say p k) := by
  refine ⟨hp, fun r => ?_⟩
  rcases r with e | v
  · trivial
  · exact hk

theorem not_reply_data {c : Json} (h1 : c.find? (lit "status") = some (.str (lit "ok"))) (h2 : c.find? (lit "data") = none) :
    ¬ Reply (fun c => Has c "found" Flag ∧ Has c "data" Dict ∧ Has c "metadata" Dict) c := by
  rintro (h | h | h)
  · exact not_has h2 h.2.2.1
  · exact not_const h1 (by simp (decide := true) [Const]) h.1
  · have := congrArg (·.find? (lit "status")) h
    rw [show c.find? (lit "status") = _ from h1] at this
    exact absurd this (by decide +kernel)

theorem demo_conforms : ConformsOn (· ∉ demoWrong) demo where
  execute n _ _ _ _ _ := obeys_say (fun _ => ⟨⟨_, rfl⟩, ⟨_, rfl⟩⟩) (obeys_say (fun _ => trivial) fun _ => .inl ⟨.str (lit "ok"), by decide +kernel, rfl⟩)
  complete _ _ := fun h => absurd (by decide +kernel) h
  inspect _ _ _ := fun h => absurd (by decide +kernel) h
  isComplete _ := fun _ => documented_of (i := 15) rfl (.inl ⟨.str (lit "complete"), by decide +kernel, .inl rfl⟩)
  kernelInfo := fun h => absurd (by decide +kernel) h
  shutdown := trivial
  internal _ := trivial
  target _ _ _ := trivial
  handler _ _ := trivial
  debug _ h := by cases h

theorem test_conforms : ConformsOn (· ∉ testWrong) testing where
  execute n code _ _ _ _ := by
    have ha : Obeys (OpOn (· ∉ testWrong)) (fun c => lit "execute_reply" ∉ testWrong → Fine c ∨ Failed c) (testAnswer n code) := by
      unfold testAnswer
      split
      · exact fun _ => .inl ⟨.str (lit "ok"), by decide +kernel, rfl⟩
      · exact obeys_say (fun h => absurd (show lit "execute_result" ∈ testWrong by decide +kernel) h)
          fun _ => .inl ⟨.str (lit "ok"), by decide +kernel, rfl⟩
    have he : Obeys (OpOn (· ∉ testWrong)) (fun c => lit "execute_reply" ∉ testWrong → Fine c ∨ Failed c) (testErr n code) := by
      unfold testErr
      split
      · exact obeys_say (fun _ => .inr rfl) ha
      · exact ha
    show Obeys _ _ (testExecute n code)
    unfold testExecute
    split
    · exact obeys_say (fun _ => .inl rfl) he
    · exact he
  complete _ _ := fun h => absurd (by decide +kernel) h
  inspect _ _ _ := fun _ => documented_of (i := 12) rfl (.inl ⟨⟨.str (lit "ok"), by decide +kernel, rfl⟩, ⟨.bool true, by decide +kernel, _, rfl⟩,
    ⟨.obj [(lit "text/plain", .str [])], by decide +kernel, _, rfl⟩, ⟨.obj [(lit "text/plain", .str [])], by decide +kernel, _, rfl⟩⟩)
  isComplete _ := fun h => absurd (by decide +kernel) h
  kernelInfo := fun h => absurd (by decide +kernel) h
  shutdown := trivial
  internal _ := trivial
  target _ _ _ := trivial
  handler _ _ := trivial
  debug _ h := by cases h

end Protocol

/-- C112: of the messages of the example kernel, all but those of three types are as the protocol requires or one of the deviations. -/
theorem C112_demo (env : Env) [Stock env] (xs : List (Multipart × Chan)) (shellQ stdinQ : List Multipart) :
    ∀ e ∈ ((life env demo demoConf xs).run (World.initial () shellQ stdinQ)).2.out, ∀ t c, Says e t c → t ∉ demoWrong →
      Documented t c ∨ Deviates t c := by
  obtain ⟨es, h1, h2⟩ := (utters_life (env := env) (T := (· ∉ demoWrong)) demo_conforms (conf := demoConf) trivial xs).run (World.initial () shellQ stdinQ)
  intro e he t c hs ht
  rw [h1] at he
  exact knownOn_says (h2 e (by simpa [World.initial] using he)) hs ht

/-- C112: of the messages of the test kernel, all but those of four types are as the protocol requires or one of the deviations. -/
theorem C112_test (env : Env) [Stock env] (xs : List (Multipart × Chan)) (shellQ stdinQ : List Multipart) :
    ∀ e ∈ ((life env testing testConf xs).run (World.initial () shellQ stdinQ)).2.out, ∀ t c, Says e t c → t ∉ testWrong →
      Documented t c ∨ Deviates t c := by
  have hc : Obeys (DOpOn (· ∉ testWrong)) (fun _ => True) testConf := by
    refine ⟨trivial, fun r => ?_⟩
    rcases r with e | v <;> trivial
  obtain ⟨es, h1, h2⟩ := (utters_life (env := env) (T := (· ∉ testWrong)) test_conforms hc xs).run (World.initial () shellQ stdinQ)
  intro e he t c hs ht
  rw [h1] at he
  exact knownOn_says (h2 e (by simpa [World.initial] using he)) hs ht

/-- An execution by the test kernel: of its six messages, the result is the only one of those types. -/
example : (told ((life sampleEnv testing testConf [(wireOf (sampleReq "execute_request" (.obj [(lit "code", .str (lit "hello, world"))])), .shell)]).run
    (World.initial () [] [])).2.out).map (·.1) = [some (.str (lit "status")), some (.str (lit "status")), some (.str (lit "execute_input")),
      some (.str (lit "stream")), some (.str (lit "execute_result")), some (.str (lit "execute_reply")), some (.str (lit "status"))] := by decide +kernel

/-- Finding (C112): the exceptions.  What the interpreters give the kernel for the messages of these types is never what the protocol requires:
the descriptions have no status, the completions and the result of the test kernel no metadata, the inspections of the example neither data nor
metadata.  Whether code is complete is told properly by the test kernel if the code is one of the four words. -/
theorem C112_bundled_refuted :
    (∀ code pos, ¬ Documented (lit "complete_reply") (demoComplete code pos)) ∧
    (∀ code, ¬ Documented (lit "inspect_reply") (demoInspect code)) ∧
    (∀ v, ¬ Documented (lit "kernel_info_reply") (demoInfo.put (lit "protocol_version") v)) ∧
    (∀ v, ¬ Documented (lit "kernel_info_reply") (testInfo.put (lit "protocol_version") v)) ∧
    (∀ code pos j, testing.complete code pos = .ret j → ¬ Documented (lit "complete_reply") j) ∧
    (∀ n code, ¬ Documented (lit "execute_result") (PubOp.content (.execResult n (filled [("text/plain", .str code)]) .null))) ∧
    ∀ code, Documented (lit "is_complete_reply") (testIsComplete code) ↔
      code = lit "complete" ∨ code = lit "incomplete" ∨ code = lit "invalid" ∨ code = lit "unknown" := by
  have meta0 : ∀ (a b c : Json), ¬ Documented (lit "complete_reply") (filled [("status", text "ok"), ("matches", a), ("cursor_start", b), ("cursor_end", c)]) := by
    intro a b c
    refine not_row (i := 13) rfl ?_
    rintro (h | h | h)
    · refine not_has ?_ h.2.2.2.2
      simp (decide := true) [filled, Json.find?_put]
    · refine not_const (v := .str (lit "ok")) ?_ ?_ h.1
      · simp (decide := true) [filled, text, Json.find?_put]
      · simp (decide := true) [Const]
    · have := congrArg (·.find? (lit "status")) h
      simp (decide := true) [filled, text, Json.find?_put] at this
  have info0 : ∀ j v : Json, j.find? (lit "status") = none → ¬ Documented (lit "kernel_info_reply") (j.put (lit "protocol_version") v) := by
    intro j v hj
    have : (j.put (lit "protocol_version") v).find? (lit "status") = none := by
      rw [Json.find?_put, if_neg (by decide)]; exact hj
    refine not_row (i := 16) rfl (not_reply (not_has this) (fun h => not_has this h.1) fun h => ?_)
    have h' := congrArg (·.find? (lit "status")) h
    rw [show (j.put (lit "protocol_version") v).find? (lit "status") = _ from this] at h'
    exact absurd h' (by decide +kernel)
  refine ⟨fun code pos => ?_, fun code => ?_, fun v => info0 _ v (by decide +kernel), fun v => info0 _ v (by decide +kernel), ?_, fun n code => ?_,
    fun code => ?_⟩
  · unfold demoComplete
    split <;> exact meta0 _ _ _
  · refine not_row (i := 12) rfl ?_
    unfold demoInspect
    split
    · exact not_reply_data (by decide +kernel) (by decide +kernel)
    · exact not_reply_data (by decide +kernel) (by decide +kernel)
  · intro code pos j hj
    cases hj
    exact meta0 _ _ _
  · refine not_row (i := 5) rfl fun h => ?_
    obtain ⟨v, hv, l, rfl⟩ := h.2.2
    simp (decide := true) [PubOp.content, Json.find?_put] at hv
  · have hst : (testIsComplete code).find? (lit "status") = some (.str code) := by
      unfold testIsComplete
      simp only
      split <;> simp (decide := true) [Json.find?_put]
    constructor
    · rintro ⟨r, hr, ht, hc⟩
      rw [row_unique (i := 15) rfl r hr ht] at hc
      rcases hc with ⟨v, hv, h⟩ | ⟨⟨v, hv, h⟩, _⟩
      · rw [hst] at hv
        obtain rfl := Option.some.inj hv
        rcases h with h | h | h
        · exact .inl (Json.str.inj h)
        · exact .inr (.inr (.inl (Json.str.inj h)))
        · exact .inr (.inr (.inr (Json.str.inj h)))
      · rw [hst] at hv
        obtain rfl := Option.some.inj hv
        exact .inr (.inl (Json.str.inj h))
    · rintro (rfl | rfl | rfl | rfl)
      · exact documented_of (i := 15) rfl (.inl ⟨_, hst, .inl rfl⟩)
      · exact documented_of (i := 15) rfl (.inr ⟨⟨_, hst, rfl⟩, ⟨.str (lit "   "), by decide +kernel, _, rfl⟩⟩)
      · exact documented_of (i := 15) rfl (.inl ⟨_, hst, .inr (.inl rfl)⟩)
      · exact documented_of (i := 15) rfl (.inl ⟨_, hst, .inr (.inr rfl)⟩)

end Xeus
