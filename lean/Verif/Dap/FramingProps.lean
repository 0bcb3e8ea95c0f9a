import Verif.Dap.FramingLemmas
import Verif.Wire.Spec
import Verif.JsonCodec

/-!
# Framing of the debug adapter's messages: properties C53, C54
-/

namespace Xeus

open Spec

/-! ## Concrete material -/

/-- An occurrence found by search is the only one in a text that ends with it. -/
theorem first_of_find {pat pre : Str} (h : findAux pat (pre ++ pat) 0 = some pre.length) :
    ∀ u v, pre ++ pat = u ++ pat ++ v → v = [] := by
  have key : ∀ (s : Str) (i p : Nat), findAux pat s i = some p → ∀ u v, s = u ++ pat ++ v → p ≤ i + u.length := by
    intro s
    induction s with
    | nil =>
      intro i p hp u v huv
      simp only [findAux] at hp
      split at hp
      · simp at hp; omega
      · simp at hp
    | cons c s ih =>
      intro i p hp u v huv
      simp only [findAux] at hp
      split at hp
      · simp at hp; omega
      · next hn =>
        cases u with
        | nil =>
          exfalso
          apply hn
          rw [huv]
          exact List.isPrefixOf_iff_prefix.2 ⟨v, by simp⟩
        | cons a u =>
          simp only [List.cons_append, List.cons.injEq] at huv
          have := ih _ _ hp u v huv.2
          simp only [List.length_cons]
          omega
  intro u v huv
  have h1 := key _ _ _ h u v huv
  have h2 := congrArg List.length huv
  simp only [List.length_append] at h2
  exact List.eq_nil_of_length_eq_zero (by omega)

/-- The message with the single field `Content-Length`. -/
def plainMsg (body : Str) : DapMsg := ⟨dapHeader ++ natDigits body.length ++ dapSeparator, body⟩

theorem plainMsg_ok {body : Str} (h : body.length < 18446744073709551616) : (plainMsg body).Ok := by
  obtain ⟨h1, h2, h3, _⟩ := natDigits_spec body.length
  refine ⟨⟨[], natDigits body.length, [], ?_, first_self, h1, h2, h3, .inl rfl, ?_⟩, h⟩
  · simp [plainMsg, dapHeader, dapSeparator]
  · intro u v huv
    rw [List.append_nil] at huv
    have hl := congrArg List.length huv
    simp only [List.length_append] at hl
    by_cases hu : u.length < (natDigits body.length).length
    · exfalso
      have e := congrArg (fun l : Str => l[u.length]?) huv
      rw [List.getElem?_append_left hu, List.append_assoc, List.getElem?_append_right (Nat.le_refl _)] at e
      simp only [Nat.sub_self] at e
      rw [List.getElem?_eq_getElem hu] at e
      have hm := List.getElem_mem hu
      have hd := isDigit_ascii (h2 _ hm)
      have hs : (lit "\r\n\r\n" ++ v)[0]? = some 13 := rfl
      rw [hs] at e
      have e' := Option.some.inj e
      rw [e'] at hd
      simp at hd
    · exact List.eq_nil_of_length_eq_zero (by omega)

/-- A message with other header fields before and after the length. -/
def richMsg : DapMsg := ⟨lit "X-Trace: 7\r\nContent-Length: 2\r\nContent-Type: json\r\n\r\n", lit "{}"⟩

theorem richMsg_ok : richMsg.Ok := by
  refine ⟨⟨lit "X-Trace: 7\r\n", lit "2", lit "\r\nContent-Type: json", by decide, ?_, by decide, by decide, by decide,
    .inr ⟨lit "Content-Type: json", by decide⟩, ?_⟩, by decide⟩
  · exact first_of_find (by decide)
  · exact first_of_find (by decide)

/-! ## C53 -/

/-- **C53**.  A read of a stream made of well-formed messages (of which the chunks may be only the beginning) returns at
the first chunk that ends exactly where a message ends, and delivers exactly the messages up to there, in order and
unaltered, after what was in the queue; nothing is read beyond that chunk. -/
theorem C53_read {ms : List DapMsg} (hms : ∀ m ∈ ms, m.Ok) {cs : List Str} (h : cs.flatten <+: wireOfMsgs ms)
    {k n : Nat} (hend : EndsMsg cs ms k n) (hfirst : ∀ j < k, ∀ n', ¬ EndsMsg cs ms j n') (q : List Str) :
    handleTcp q cs = .got (q ++ bodies (ms.take n)) (cs.drop k) := by
  rcases handleTcp_cases hms q h with ⟨k', n', h1, h2, h3⟩ | ⟨h1, _⟩
  · have hk : k = k' := by
      rcases Nat.lt_trichotomy k k' with hlt | heq | hgt
      · exact absurd hend (h2 k hlt n)
      · exact heq
      · exact absurd h1 (hfirst k' hgt n')
    subst hk
    have := EndsMsg.unique hms hend h1
    subst this
    exact h3
  · exact absurd hend (h1 k n)

/-- **C53**.  A read waits for ever exactly when no chunk ever ends where a message ends. -/
theorem C53_blocks {ms : List DapMsg} (hms : ∀ m ∈ ms, m.Ok) {cs : List Str} (h : cs.flatten <+: wireOfMsgs ms)
    (q : List Str) : handleTcp q cs = .blocked ↔ ∀ k n, ¬ EndsMsg cs ms k n := by
  rcases handleTcp_cases hms q h with ⟨k', n', h1, h2, h3⟩ | ⟨h1, h2⟩
  · rw [h3]
    exact ⟨fun hc => (by cases hc), fun hc => absurd h1 (hc _ _)⟩
  · exact ⟨fun _ => h1, fun _ => h2⟩

/-- Successive reads into the same queue. -/
inductive Reads : List Str → List Str → List Str → List Str → Prop
  | refl {q cs} : Reads q cs q cs
  | step {q cs q₁ cs₁ q₂ cs₂} : handleTcp q cs = .got q₁ cs₁ → Reads q₁ cs₁ q₂ cs₂ → Reads q cs q₂ cs₂

/-- **C53**.  However the bytes of a sequence of messages are cut into chunks, reading repeatedly delivers exactly these
messages, in order, until nothing is left. -/
theorem C53_all {ms : List DapMsg} (hms : ∀ m ∈ ms, m.Ok) {cs : List Str} (h : cs.flatten = wireOfMsgs ms)
    (q : List Str) : ∃ cs', Reads q cs (q ++ bodies ms) cs' ∧ cs'.flatten = [] := by
  generalize hN : ms.length = N
  induction N using Nat.strongRecOn generalizing ms cs q with
  | _ N ih =>
    cases hms0 : ms with
    | nil =>
      subst hms0
      exact ⟨cs, by simpa [bodies] using Reads.refl, h⟩
    | cons m ms' =>
      rw [← hms0]
      have hend : EndsMsg cs ms cs.length ms.length :=
        ⟨by rw [hms0]; simp, Nat.le_refl _, Nat.le_refl _, by simpa using h⟩
      rcases handleTcp_cases hms q (by rw [h]; exact List.prefix_refl _) with ⟨k, n, h1, _, h3⟩ | ⟨h1, _⟩
      · have hrest : (cs.drop k).flatten = wireOfMsgs (ms.drop n) := by
          have e1 : cs.flatten = (cs.take k).flatten ++ (cs.drop k).flatten := by
            rw [← List.flatten_append, List.take_append_drop]
          have e2 : wireOfMsgs ms = wireOfMsgs (ms.take n) ++ wireOfMsgs (ms.drop n) := by
            unfold wireOfMsgs; rw [← List.flatMap_append, List.take_append_drop]
          rw [e1, e2, h1.2.2.2] at h
          exact List.append_cancel_left h
        obtain ⟨cs', hr, he⟩ := ih (ms.drop n).length (by
            have := h1.1; have := h1.2.1
            rw [List.length_drop]; omega)
          (fun m hm => hms m (List.mem_of_mem_drop hm)) hrest (q ++ bodies (ms.take n)) rfl
        refine ⟨cs', .step h3 ?_, he⟩
        have : q ++ bodies ms = q ++ bodies (ms.take n) ++ bodies (ms.drop n) := by
          rw [List.append_assoc]; unfold bodies; rw [← List.map_append, List.take_append_drop]
        rw [this]
        exact hr
      · exact absurd hend (h1 _ _)

/-- **C53**.  Whatever has been read so far, it is the first messages, and the chunks that remain are the others. -/
theorem C53_prefix {ms : List DapMsg} (hms : ∀ m ∈ ms, m.Ok) {cs : List Str} (h : cs.flatten = wireOfMsgs ms)
    {q q' cs' : List Str} (hr : Reads q cs q' cs') :
    ∃ n, q' = q ++ bodies (ms.take n) ∧ cs'.flatten = wireOfMsgs (ms.drop n) := by
  induction hr generalizing ms with
  | refl => exact ⟨0, by simp [bodies], by simpa using h⟩
  | @step q cs q₁ cs₁ q₂ cs₂ h1 _ ih =>
    rcases handleTcp_cases hms q (by rw [h]; exact List.prefix_refl _) with ⟨k, n, h2, _, h3⟩ | ⟨_, h2⟩
    · rw [h3] at h1
      injection h1 with e1 e2
      subst e1; subst e2
      have hrest : (cs.drop k).flatten = wireOfMsgs (ms.drop n) := by
        have e1 : cs.flatten = (cs.take k).flatten ++ (cs.drop k).flatten := by
          rw [← List.flatten_append, List.take_append_drop]
        have e2 : wireOfMsgs ms = wireOfMsgs (ms.take n) ++ wireOfMsgs (ms.drop n) := by
          unfold wireOfMsgs; rw [← List.flatMap_append, List.take_append_drop]
        rw [e1, e2, h2.2.2.2] at h
        exact List.append_cancel_left h
      obtain ⟨n', h4, h5⟩ := ih (fun m hm => hms m (List.mem_of_mem_drop hm)) hrest
      refine ⟨n + n', ?_, by rw [h5, List.drop_drop]⟩
      rw [h4, List.append_assoc, List.take_add]
      simp [bodies]
    · rw [h2] at h1
      cases h1

/-- **C53**.  A complete message is not delivered while the bytes after it are an incomplete message. -/
theorem C53_withheld_witness : ∃ (ms : List DapMsg) (cs : List Str), (∀ m ∈ ms, m.Ok) ∧
    cs.flatten <+: wireOfMsgs ms ∧ (∃ m ∈ ms.head?, m.head ++ m.body <+: cs.flatten) ∧
    handleTcp [] cs = .blocked := by
  refine ⟨[plainMsg (lit "{}"), plainMsg (lit "[1]")], [lit "Content-Length: 2\r\n\r\n{}Cont", lit "ent-Length: 3\r"], ?_,
    ?_, ?_, by decide +kernel⟩
  · intro m hm
    simp only [List.mem_cons, List.not_mem_nil, or_false] at hm
    rcases hm with rfl | rfl <;> exact plainMsg_ok (by decide)
  · decide +kernel
  · exact ⟨_, rfl, by decide +kernel⟩

/-- A stream of three messages, one with other header fields, cut in unfortunate places. -/
def sampleChunks : List Str :=
  [lit "Content-Le", [], lit "ngth: 4\r\n\r", lit "\nnullX-Trace: 7\r\nContent-", lit "Length: 2\r\nContent-Type: json\r\n\r\n{}",
   lit "Content-Length: 1\r\n\r\n", lit "1"]

def sampleMsgs : List DapMsg := [plainMsg (lit "null"), richMsg, plainMsg (lit "1")]

theorem sampleMsgs_ok : ∀ m ∈ sampleMsgs, m.Ok := by
  intro m hm
  simp only [sampleMsgs, List.mem_cons, List.not_mem_nil, or_false] at hm
  rcases hm with rfl | rfl | rfl
  · exact plainMsg_ok (by decide)
  · exact richMsg_ok
  · exact plainMsg_ok (by decide)

theorem sampleChunks_flatten : sampleChunks.flatten = wireOfMsgs sampleMsgs := by decide +kernel

example : ∃ cs', Reads [] sampleChunks [lit "null", lit "{}", lit "1"] cs' ∧ cs'.flatten = [] :=
  C53_all sampleMsgs_ok sampleChunks_flatten []

/-- The first read ends with the fifth chunk, after two messages. -/
example : EndsMsg sampleChunks sampleMsgs 5 2 ∧ (∀ j < 5, ∀ n', ¬ EndsMsg sampleChunks sampleMsgs j n') ∧
    handleTcp [lit "x"] sampleChunks = .got [lit "x", lit "null", lit "{}"] [lit "Content-Length: 1\r\n\r\n", lit "1"] := by
  have he : EndsMsg sampleChunks sampleMsgs 5 2 := ⟨by decide, by decide, by decide, by decide +kernel⟩
  have hf : ∀ j < 5, ∀ n', ¬ EndsMsg sampleChunks sampleMsgs j n' := by
    have : ∀ j < 5, ∀ n' < 4, ¬ (0 < n' ∧ (sampleChunks.take j).flatten = wireOfMsgs (sampleMsgs.take n')) := by
      decide +kernel
    rintro j hj n' ⟨h1, h2, _, h3⟩
    exact this j hj n' (by have : sampleMsgs.length = 3 := rfl; omega) ⟨h1, h3⟩
  exact ⟨he, hf, C53_read sampleMsgs_ok (by rw [sampleChunks_flatten]; exact List.prefix_refl _) he hf _⟩

/-- A stream cut off in the middle. -/
example : handleTcp [] [lit "Content-Length: 4\r\n\r\nnu"] = .blocked := by
  refine (C53_blocks (ms := [plainMsg (lit "null")]) ?_ ?_ _).2 ?_
  · intro m hm; simp only [List.mem_singleton] at hm; subst hm; exact plainMsg_ok (by decide)
  · decide +kernel
  · have : ∀ k < 2, ∀ n < 2, ¬ (0 < n ∧ ([lit "Content-Length: 4\r\n\r\nnu"].take k).flatten =
        wireOfMsgs ([plainMsg (lit "null")].take n)) := by decide +kernel
    rintro k n ⟨h1, h2, h3, h4⟩
    simp only [List.length_cons, List.length_nil] at h2 h3
    exact this k (by omega) n (by omega) ⟨h1, h4⟩

/-! ## C54 -/

/-- **C54**.  The bytes sent for a text are one well-formed message with this body. -/
theorem C54_framed (content : Str) (h : content.length < 18446744073709551616) :
    ∃ m : DapMsg, m.Ok ∧ m.body = content ∧ dapFrame content = m.head ++ m.body ∧
      m.head = lit "Content-Length: " ++ natDigits content.length ++ lit "\r\n\r\n" :=
  ⟨plainMsg content, plainMsg_ok h, rfl, rfl, rfl⟩

/-- The client's own extraction of the text of a request. -/
theorem controlText_frame (content : Str) : controlText (dapFrame content) = .ok content := by
  have hd := natDigits_spec content.length
  have hfind : findFrom (dapFrame content) dapSeparator 0 = some (16 + (natDigits content.length).length) := by
    have hno : ∀ u v, dapHeader ++ natDigits content.length ++ dapSeparator = u ++ dapSeparator ++ v → v = [] := by
      intro u v huv
      have hl := congrArg List.length huv
      simp only [List.length_append] at hl
      by_cases hu : u.length < (dapHeader ++ natDigits content.length).length
      · exfalso
        have e := congrArg (fun l : Str => l[u.length]?) huv
        rw [List.getElem?_append_left hu, List.append_assoc, List.getElem?_append_right (Nat.le_refl _)] at e
        simp only [Nat.sub_self] at e
        rw [List.getElem?_eq_getElem hu] at e
        have hm := List.getElem_mem hu
        have hs : (dapSeparator ++ v)[0]? = some 13 := rfl
        rw [hs] at e
        have e' := Option.some.inj e
        rw [e'] at hm
        rcases List.mem_append.1 hm with hm | hm
        · exact absurd hm (by decide)
        · have := isDigit_ascii (hd.2.1 _ hm)
          simp at this
      · simp only [List.length_append] at hu
        exact List.eq_nil_of_length_eq_zero (by omega)
    have := findFrom_first (past := []) (pat := dapSeparator) (pre := dapHeader ++ natDigits content.length)
      (rest := content) (cur := dapFrame content) (by decide) hno
      (by simp [dapFrame, List.append_assoc])
    simp only [List.nil_append, List.length_nil] at this
    rw [this]
    simp only [dapFrame, List.length_append, dapHeader_length, dapSeparator_length]
    rw [if_pos (by omega)]
    simp
  unfold controlText
  rw [hfind]
  dsimp only
  have hlen : (dapFrame content).length = 16 + (natDigits content.length).length + 4 + content.length := by
    simp only [dapFrame, List.length_append, dapHeader_length, dapSeparator_length]
  have hle : 16 + (natDigits content.length).length + 4 ≤ (dapFrame content).length := by omega
  rw [if_pos hle]
  have : 16 + (natDigits content.length).length + 4 =
      (dapHeader ++ natDigits content.length ++ dapSeparator).length := by
    simp only [List.length_append, dapHeader_length, dapSeparator_length]
  rw [this]
  unfold dapFrame
  rw [List.drop_left]

/-- **C54**.  Requests can be read back: for every JSON value that can be printed, the bytes sent, however they are
segmented, are read as exactly one message whose text parses to the value; the client's own extraction of the text of a
request (`handle_control_socket`) gives the same text. -/
theorem C54_roundtrip (K : Codec) (hK : LawfulCodec K) (j : Json) (hc : j.canon = true) (hu : JsonUtf8 j) :
    ∃ content, K.dump .strict j = some content ∧ K.parse content = some j ∧
      controlText (dapFrame content) = .ok content ∧
      (content.length < 18446744073709551616 → ∀ cs : List Str, cs.flatten = dapFrame content →
        ∃ cs', handleTcp [] cs = .got [content] cs' ∧ cs'.flatten = []) := by
  obtain ⟨content, h1, h2⟩ := hK.roundtrip .strict j hc hu
  refine ⟨content, h1, h2, controlText_frame content, ?_⟩
  intro hlen cs hcs
  have hok : ∀ m ∈ [plainMsg content], m.Ok := by
    intro m hm; simp only [List.mem_singleton] at hm; subst hm; exact plainMsg_ok hlen
  have hw : wireOfMsgs [plainMsg content] = dapFrame content := by
    simp [wireOfMsgs, plainMsg, dapFrame]
  rcases handleTcp_cases hok [] (cs := cs) (by rw [hcs, hw]; exact List.prefix_refl _) with ⟨k, n, h1, _, h3⟩ | ⟨h1, _⟩
  · have hn : n = 1 := by have := h1.1; have := h1.2.1; simp at this; omega
    subst hn
    refine ⟨cs.drop k, h3, ?_⟩
    have e1 : cs.flatten = (cs.take k).flatten ++ (cs.drop k).flatten := by
      rw [← List.flatten_append, List.take_append_drop]
    rw [h1.2.2.2, List.take_of_length_le (by simp), hw, hcs] at e1
    exact List.append_cancel_left (as := dapFrame content) (by simpa using e1.symm)
  · exact absurd (⟨by omega, by simp, Nat.le_refl _, by simp [hcs, hw]⟩ : EndsMsg cs [plainMsg content] cs.length 1)
      (h1 _ _)

/-- **C54**.  A value that cannot be printed is not sent at all. -/
theorem C54_unprintable (K : Codec) (hK : LawfulCodec K) (j : Json) (hu : ¬ JsonUtf8 j) :
    K.writeZmq .strict j = .exc .typeError := by
  simp [Codec.writeZmq, hK.dump_strict j hu]

example : dapFrame (lit "{\"seq\":1}") = lit "Content-Length: 9\r\n\r\n{\"seq\":1}" := by decide +kernel

example : ∃ content, stdCodec.dump .strict (.obj [(lit "seq", .int 1)]) = some content ∧
    controlText (dapFrame content) = .ok content := by
  have hu : JsonUtf8 (.obj [(lit "seq", .int 1)]) := (jsonUtf8_iff _).2 (by decide +kernel)
  obtain ⟨c, h1, _, h2, _⟩ := C54_roundtrip stdCodec stdCodec_lawful (.obj [(lit "seq", .int 1)]) (by decide +kernel) hu
  exact ⟨c, h1, h2⟩

end Xeus
