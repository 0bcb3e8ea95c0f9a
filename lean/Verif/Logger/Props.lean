import Verif.Logger.Lemmas

/-!
# Properties C71, C72: logging

Only the property theorems and the `example`s that instantiate their hypotheses.
-/

namespace Xeus

open Xeus.Spec Log Log.Spec

/-! ## C71 -/

/-- C71: if every logger of the chain can log the message, each does so exactly once, in the order of the chain, with
exactly the parts of its level. -/
theorem C71_logged (K : Codec) (dump4 : Json → Option Str) (hp : LawfulPretty K dump4) (chain : Chain) (e : LogEv)
    (hb : Holdable (messageOf e)) (info : Str) (hi : Introduces e info) (t : Str) (ht : TypeOf (messageOf e) t)
    (hc : ∀ l ∈ chain, CanLog info (messageOf e) t l) :
    ∃ ws, logEvent dump4 chain e = (.ok (), ws) ∧ Entries K info (messageOf e) t chain ws := by
  simp only [messageOf_eq] at *
  cases chain with
  | nil => exact ⟨[], rfl, .nil⟩
  | cons l rest =>
    obtain ⟨ws, h1, h2⟩ := logMessage_ok hp hb ht (l :: rest) hc
    exact ⟨ws, by simp only [logEvent, (infoOf_iff e info).2 hi, h1], h2⟩

/-- C71: logging is on exactly if a logger was given and the variable is set. -/
theorem C71_chosen (given : Option Chain) (set : Bool) (dump4 : Json → Option Str) :
    (∀ c, given = some c → set = true → chosen given set = c) ∧
    (given = none ∨ set = false → ∀ e, logEvent dump4 (chosen given set) e = (.ok (), [])) := by
  refine ⟨fun c hg hs => by simp [chosen, hg, hs], fun h e => ?_⟩
  rcases h with rfl | rfl
  · rfl
  · cases given <;> rfl

/-! ## C72 -/

/-- C72: logging is undefined behaviour exactly if a logger is told of a message without identities; it always ends. -/
theorem C72_undefined (K : Codec) (dump4 : Json → Option Str) (hp : LawfulPretty K dump4) (chain : Chain) (e : LogEv)
    (hb : Holdable (messageOf e)) :
    ((∃ why, (logEvent dump4 chain e).1 = .ub why) ↔
      chain ≠ [] ∧ ∃ c m, (e = .received c m ∨ e = .sent c m) ∧ m.ids = []) ∧
    (logEvent dump4 chain e).1 ≠ .hang := by
  simp only [messageOf_eq] at *
  have hfair : ∀ info chain, (logMessage dump4 info (bodyOf e) chain).1 = .ok () ∨
      (logMessage dump4 info (bodyOf e) chain).1 = .exc .typeError := by
    intro info chain
    by_cases ht : ∃ t, TypeOf (bodyOf e) t
    · obtain ⟨t, ht⟩ := ht
      induction chain with
      | nil => exact .inl rfl
      | cons l rest ih =>
        obtain ⟨r, e1, e2, e3, e4⟩ := record_ok hb ht l.level
        by_cases hcan : CanLog info (bodyOf e) t l
        · obtain ⟨w, e5, _⟩ := writeRecord_ok hp e2 e3 e4 hcan
          simpa only [logMessage, e1, e5] using ih
        · obtain ⟨ws, e5, _⟩ := writeRecord_exc hp e4 hcan
          simp [logMessage, e1, e5]
    · cases chain with
      | nil => exact .inl rfl
      | cons l rest => simp [logMessage, record_exc hb (fun t h => ht ⟨t, h⟩)]
  cases chain with
  | nil => simp [logEvent]
  | cons l rest =>
    by_cases hi : ∃ info, Introduces e info
    · obtain ⟨info, hi⟩ := hi
      have h1 := (infoOf_iff e info).2 hi
      simp only [logEvent, h1]
      have hno : ¬ ∃ c m, (e = .received c m ∨ e = .sent c m) ∧ m.ids = [] := by
        rintro ⟨c, m, rfl | rfl, hm⟩ <;>
        · obtain ⟨id, tl, h, _⟩ := hi
          rw [hm] at h
          cases h
      rcases hfair info (l :: rest) with h | h <;> rw [h] <;> simp [hno]
    · have : ∃ c m, (e = .received c m ∨ e = .sent c m) ∧ m.ids = [] := by
        cases e with
        | received c m =>
          refine ⟨c, m, .inl rfl, ?_⟩
          cases hm : m.ids with
          | nil => rfl
          | cons id tl =>
            obtain ⟨s, _, h2, h3⟩ := shownId_ok id tl
            exact absurd ⟨_, id, tl, hm, s, h2, h3, rfl⟩ hi
        | sent c m =>
          refine ⟨c, m, .inr rfl, ?_⟩
          cases hm : m.ids with
          | nil => rfl
          | cons id tl =>
            obtain ⟨s, _, h2, h3⟩ := shownId_ok id tl
            exact absurd ⟨_, id, tl, hm, s, h2, h3, rfl⟩ hi
        | iopub m => exact absurd ⟨_, rfl⟩ hi
      refine ⟨⟨fun _ => ⟨by simp, this⟩, fun _ => ?_⟩, ?_⟩
      · obtain ⟨c, m, rfl | rfl, hm⟩ := this <;> exact ⟨_, by simp only [logEvent, infoOf, hm, shownId]; rfl⟩
      · obtain ⟨c, m, rfl | rfl, hm⟩ := this <;> simp [logEvent, infoOf, hm, shownId]

/-- C72: a logger that cannot log the message throws; those before it have logged it, those after it have not. -/
theorem C72_stops (K : Codec) (dump4 : Json → Option Str) (hp : LawfulPretty K dump4) (e : LogEv)
    (hb : Holdable (messageOf e)) (info : Str) (hi : Introduces e info) (t : Str) (ht : TypeOf (messageOf e) t)
    (pre : Chain) (l : Logger) (post : Chain) (hpre : ∀ x ∈ pre, CanLog info (messageOf e) t x) (hl : ¬ CanLog info (messageOf e) t l) :
    ∃ ws last, logEvent dump4 (pre ++ l :: post) e = (.exc .typeError, ws ++ last) ∧ Entries K info (messageOf e) t pre ws ∧
      (last = [] ∨ last = [(.console, info ++ lit "\n")]) := by
  simp only [messageOf_eq] at *
  obtain ⟨ws, last, h1, h2, h3⟩ := logMessage_stops hp hb ht l post hl pre hpre
  refine ⟨ws, last, ?_, h2, h3⟩
  have hi := (infoOf_iff e info).2 hi
  cases pre with
  | nil => simpa only [List.nil_append, logEvent, hi] using h1
  | cons x pre => simpa only [List.cons_append, logEvent, hi] using h1

/-- C72: a message whose header is no object, or whose type is not a string, makes any logger throw; nothing is written. -/
theorem C72_type (dump4 : Json → Option Str) (e : LogEv) (hb : Holdable (messageOf e)) (info : Str) (hi : Introduces e info)
    (ht : ∀ t, ¬ TypeOf (messageOf e) t) (chain : Chain) (hc : chain ≠ []) : logEvent dump4 chain e = (.exc .typeError, []) := by
  simp only [messageOf_eq] at *
  cases chain with
  | nil => exact absurd rfl hc
  | cons l rest => simp only [logEvent, (infoOf_iff e info).2 hi, logMessage, record_exc hb ht]

/-- C72: received messages can be logged at every level by every logger: all their strings are valid UTF-8, and an identity
that is not is replaced. -/
theorem C72_received (C : Crypto) (K : Codec) (LK : LawfulCodec K) (a : Auth) (wire : Multipart) (m : XMessage)
    (hm : deserialize C K a wire = .ok m) (c : Option Chan) (info : Str) (hi : Introduces (.received c m) info) (t : Str)
    (ht : TypeOf m.body t) (l : Logger) : Holdable m.body ∧ CanLog info m.body t l := by
  have hr : Representable m.body := deserialize_representable LK hm
  obtain ⟨h1, h2, h3, h4⟩ := hr
  refine ⟨⟨h1.1, h2.1, h3.1, h4.1⟩, ?_, fun _ _ => ?_⟩
  · have htu : JsonUtf8 (.str t) := by
      obtain ⟨kvs, hk, hm | ⟨rfl, _⟩⟩ := ht
      · have := h1.2
        rw [hk] at this
        exact (utf8_member this hm).2
      · exact (jsonUtf8_iff _).2 (by decide +kernel)
    cases hl : l.level <;> simp [ShownUtf8, shown, hl, htu, h1.2, h2.2, h3.2, h4.2]
  · obtain ⟨id, rest, _, s, e1, e2, rfl⟩ := hi
    have hs : Utf8 s := by
      by_cases hu : Utf8 id
      · rw [e1 hu]; exact hu
      · rw [e2 hu]; exact utf8_lit (by decide)
    have hc : Utf8 (match c with | some .shell => lit "shell" | some .control => lit "control" | none => lit "stdin") := by
      cases c with
      | none => exact utf8_lit (by decide)
      | some c => cases c <;> exact utf8_lit (by decide)
    exact utf8_append (utf8_append (utf8_append (utf8_lit (by decide)) hc) (utf8_lit (by decide))) hs

/-- C72: a message that a kernel with a lenient error handler can send may still make the logger throw. -/
theorem C72_lenient_witness (K : Codec) (LK : LawfulCodec K) (dump4 : Json → Option Str) (hp : LawfulPretty K dump4) :
    ∃ (m : PubMessage), (∀ eh, eh ≠ ErrH.strict → (K.dump eh m.body.content).isSome = true) ∧
      logEvent dump4 [⟨.content, .console⟩] (.iopub m) =
        (.exc .typeError, [(.console, lit "XEUS: sent message on iopub - kernel.stream\n")]) := by
  refine ⟨⟨lit "kernel.stream", ⟨.obj [(lit "msg_type", .str (lit "stream"))], .obj [], .obj [], .obj [(lit "text", .str [0xFF])], []⟩⟩,
    fun eh h => LK.dump_lenient eh _ h, ?_⟩
  have hbad : ¬ JsonUtf8 ((Json.null.put (lit "msg_type") (.str (lit "stream"))).put (lit "content") (.obj [(lit "text", .str [0xFF])])) := by
    rw [jsonUtf8_iff]
    decide +kernel
  have hr : record .content ⟨.obj [(lit "msg_type", .str (lit "stream"))], .obj [], .obj [], .obj [(lit "text", .str [0xFF])], []⟩ =
    .ok ((Json.null.put (lit "msg_type") (.str (lit "stream"))).put (lit "content") (.obj [(lit "text", .str [0xFF])])) := by decide +kernel
  simp only [logEvent, infoOf, bodyOf, logMessage, hr, writeRecord, hp.invalid _ hbad]
  decide +kernel

/-! ## Instances -/

/-- The assumption on `dump(4)` has an instance. -/
theorem stdPretty : LawfulPretty stdCodec (stdCodec.dump .strict) :=
  ⟨fun j h1 h2 => stdCodec_lawful.roundtrip .strict j h1 h2, fun j h => stdCodec_lawful.dump_strict j h⟩

private def exBody : Body :=
  ⟨.obj [(lit "msg_id", .str (lit "1")), (lit "msg_type", .str (lit "stream"))], .obj [], .obj [], .obj [(lit "text", .str (lit "a"))], []⟩

private def exEvent : LogEv := .received (some .shell) ⟨[[0xFF], lit "b"], exBody⟩

private theorem exType : TypeOf exBody (lit "stream") := ⟨_, rfl, .inl (by simp)⟩

private theorem exHold : Holdable exBody := by refine ⟨?_, ?_, ?_, ?_⟩ <;> decide

private theorem exIntro : Introduces exEvent (lit "XEUS: received message on " ++ lit "shell" ++ lit " - " ++ lit "invalid UTF8") :=
  ⟨_, _, rfl, _, fun h => absurd (JsonUtf8.str h) (by rw [jsonUtf8_iff]; decide +kernel), fun _ => rfl, rfl⟩

private theorem exUtf8 : ShownUtf8 exBody (lit "stream") .full := by
  intro m hm
  simp only [shown, exBody, List.mem_cons, List.not_mem_nil, or_false] at hm
  rcases hm with rfl | rfl | rfl | rfl | rfl <;> exact (jsonUtf8_iff _).2 (by decide +kernel)

/-- Two loggers, one of a file. -/
example : ∃ ws, logEvent (stdCodec.dump .strict) [⟨.full, .console⟩, ⟨.full, .file (lit "log")⟩] exEvent = (.ok (), ws) ∧
    Entries stdCodec (lit "XEUS: received message on " ++ lit "shell" ++ lit " - " ++ lit "invalid UTF8") exBody (lit "stream")
      [⟨.full, .console⟩, ⟨.full, .file (lit "log")⟩] ws := by
  refine C71_logged stdCodec _ stdPretty _ exEvent exHold _ exIntro _ exType ?_
  intro l hl
  have hi : Utf8 (lit "XEUS: received message on " ++ lit "shell" ++ lit " - " ++ lit "invalid UTF8") :=
    utf8_append (utf8_append (utf8_append (utf8_lit (by decide)) (utf8_lit (by decide))) (utf8_lit (by decide))) (utf8_lit (by decide))
  simp only [List.mem_cons, List.not_mem_nil, or_false] at hl
  rcases hl with rfl | rfl <;> exact ⟨exUtf8, fun _ _ => hi⟩

example : chosen (some [⟨.full, .console⟩]) true = [⟨.full, .console⟩] ∧ chosen (some [⟨.full, .console⟩]) false = [] := by decide

/-- Undefined behaviour: a logged message without identities. -/
example : ∃ why, (logEvent (stdCodec.dump .strict) [⟨.full, .console⟩] (.sent none ⟨[], exBody⟩)).1 = .ub why :=
  (C72_undefined stdCodec _ stdPretty [⟨.full, .console⟩] (.sent none ⟨[], exBody⟩) exHold).1.2 ⟨by simp, none, _, .inr rfl, rfl⟩

private def badBody : Body := { exBody with metadata := .str [0xFF] }

private theorem badUnprintable : ¬ ShownUtf8 badBody (lit "stream") .full := fun h =>
  absurd (h ("metadata", .str [0xFF]) (by simp [shown, badBody])) (by rw [jsonUtf8_iff]; decide +kernel)

/-- The logger of types has written its entry when the full one throws; the third one writes nothing. -/
example : ∃ ws last, logEvent (stdCodec.dump .strict) ([⟨.msgType, .console⟩] ++ ⟨.full, .file (lit "log")⟩ :: [⟨.msgType, .console⟩])
      (.iopub ⟨lit "t", badBody⟩) = (.exc .typeError, ws ++ last) ∧
    Entries stdCodec (lit "XEUS: sent message on iopub - " ++ lit "t") badBody (lit "stream") [⟨.msgType, .console⟩] ws ∧
    (last = [] ∨ last = [(.console, (lit "XEUS: sent message on iopub - " ++ lit "t") ++ lit "\n")]) := by
  refine C72_stops stdCodec _ stdPretty (.iopub ⟨lit "t", badBody⟩) ?_ _ rfl (lit "stream") ⟨_, rfl, .inl (by simp)⟩ _ _ _ ?_ ?_
  · refine ⟨?_, ?_, ?_, ?_⟩ <;> decide
  · intro x hx
    obtain rfl := List.mem_singleton.1 hx
    refine ⟨fun m hm => ?_, fun _ h => Sink.noConfusion h⟩
    obtain rfl := List.mem_singleton.1 hm
    exact (jsonUtf8_iff _).2 (by decide +kernel)
  · exact fun h => badUnprintable h.1

/-- A header that is no object. -/
example : logEvent (stdCodec.dump .strict) [⟨.msgType, .console⟩] (.iopub ⟨lit "t", { exBody with header := .arr [] }⟩) =
    (.exc .typeError, []) :=
  C72_type _ (.iopub ⟨lit "t", { exBody with header := .arr [] }⟩) (by refine ⟨?_, ?_, ?_, ?_⟩ <;> decide) _ rfl (fun t ⟨_, h, _⟩ => Json.noConfusion h) _ (by simp)

end Xeus
