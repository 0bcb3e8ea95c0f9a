import Verif.Dap.EventLemmas
import Verif.Dap.Sample
import Verif.Kernel.PropsSession

/-!
# Debug events are attributed: property C58
-/

namespace Xeus

open Spec K

variable {σ : Type} {cl : Client σ}

/-- **C58**.  In every run of the client, whatever arrives, whatever user code does, and however the run ends, every
publication is a debug event with the parent header received last before it (empty before any), whose content is the
event just passed to the debugger, signed with the kernel's key. -/
theorem C58_attributed (st : σ) (tcpIn ctlIn hdrIn : List Str) {r : Res Unit} {s : Dap σ}
    (h : DapRun cl (Dap.initial st tcpIn ctlIn hdrIn) r s) : Attributed cl.env s.out := by
  have h₀ : EvInv cl (Dap.initial st tcpIn ctlIn hdrIn) := ⟨by intro pre m w post he; simp [Dap.initial] at he, rfl⟩
  cases h with
  | top h => exact (evInv_reach h₀ h).1
  | left h hi => exact (evInv_run.2 _ _ _ hi (evInv_reach h₀ h)).1

/-- **C58**.  Forwarding a representable event when the parent header is absent or JSON: the debugger of the kernel is
told, then exactly one message is published, and nothing else happens. -/
theorem C58_forward (hK : LawfulCodec cl.env.J) (hu : Utf8 cl.env.user) (hse : Utf8 cl.env.session)
    (hn : ∀ n, Utf8 (cl.env.now n)) {j p : Json} (hj : j.canon = true ∧ JsonUtf8 j) {s : Dap σ}
    (hp : (s.parentHeader = [] ∧ p = .obj []) ∨ (s.parentHeader ≠ [] ∧ cl.env.J.parse s.parentHeader = some p))
    {st' : σ} (hcb : cl.callback j s.st = (.ok (), st')) :
    ∃ m wire, (forwardEvent cl j).run s = (.ok (), { s with
        st := st', guids := s.guids + 1, clocks := s.clocks + 1, out := s.out ++ [.callback j, .pub m wire] }) ∧
      m.topic = lit "debug_event" ∧ WfHeader cl.env (lit "debug_event") m.body.header ∧ m.body.parent = p ∧
      m.body.content = j ∧ m.body.metadata = .obj [] ∧ m.body.buffers = [] ∧
      deserializePub cl.env.C cl.env.J cl.env.auth wire = .ok m := by
  have hd : dapParent cl s = .ok p := by
    rcases hp with ⟨h1, rfl⟩ | ⟨h1, h2⟩
    · simp [dapParent, h1]
    · cases hh : s.parentHeader with
      | nil => exact absurd hh h1
      | cons a l => rw [hh] at h2; simp [dapParent, hh, Codec.parseZmq, h2]
  have hpp : p.canon = true ∧ JsonUtf8 p := by
    rcases hp with ⟨_, rfl⟩ | ⟨_, h2⟩
    · exact ⟨by decide, (emptyObj_printable .strict).2 rfl⟩
    · exact hK.parse_wf _ _ h2
  have hrep : Representable (debugPubAt cl s p j).body :=
    ⟨⟨headerOf_canon .., headerOf_utf8 (hexString_utf8 _) hu hse (hn _) (utf8_lit (by decide))⟩, hpp,
     ⟨(emptyObj_printable .strict).1, (emptyObj_printable .strict).2 rfl⟩, hj⟩
  obtain ⟨g, h', p', md, c, e1, e2⟩ := serializeBase_deserialize cl.env.C cl.env.J hK cl.env.auth .strict _ hrep
  have hw : serializePub cl.env.C cl.env.J cl.env.auth .strict (debugPubAt cl s p j) =
      .ok (lit "debug_event" :: delimiter :: g :: h' :: p' :: md :: c :: (debugPubAt cl s p j).body.buffers) := by
    simp only [serializePub, e1]; rfl
  refine ⟨debugPubAt cl s p j, lit "debug_event" :: delimiter :: g :: h' :: p' :: md :: c ::
    (debugPubAt cl s p j).body.buffers, ?_, rfl, ⟨_, _, rfl⟩, rfl, rfl, rfl, rfl, ?_⟩
  · rw [run_forwardEvent, hcb, andThen_ok, hd, andThen_ok, hw, andThen_ok]
    simp [afterHeader, afterCallback, hcb, List.append_assoc]
  · simp only [deserializePub, pop, Res.bind_ok, e2]
    rfl

/-- **C58**.  The published bytes are understood by a client that has the same key, as the message they stand for. -/
theorem C58_readable (hK : LawfulCodec cl.env.J) {before : List DapEv} {m : PubMessage} {wire : Multipart}
    (h : DebugPub cl.env before m wire) (hc : m.body.content.canon = true) :
    deserializePub cl.env.C cl.env.J cl.env.auth wire = .ok m := by
  have hp : m.body.parent.canon = true := by
    have := h.parent
    unfold parentAfter at this
    split at this
    · simp at this; rw [← this]; decide
    · simp at this; rw [← this]; decide
    · exact (hK.parse_wf _ _ this).1
  have hh : m.body.header.canon = true := by
    obtain ⟨i, d, e⟩ := h.header
    rw [e]; exact headerOf_canon ..
  have hrep := representable_of_sent hK (b := m.body) ⟨hh, hp, by rw [h.metadata]; decide, hc⟩ (.inl rfl)
    (serializePub_base h.wire)
  obtain ⟨g, h', p', md, c, e1, e2⟩ := serializeBase_deserialize cl.env.C cl.env.J hK cl.env.auth .strict _ hrep
  have hw := h.wire
  simp only [serializePub, e1] at hw
  have hw : wire = m.topic :: delimiter :: g :: h' :: p' :: md :: c :: m.body.buffers := by
    simp at hw; exact hw.symm
  rw [hw]
  simp [deserializePub, pop, e2]

/-- **C58**.  A parent header that is neither empty nor JSON stops the client: the exception leaves `forward_event`
after the debugger was told, and nothing is published. -/
theorem C58_bad_parent {j : Json} {s : Dap σ} (h1 : s.parentHeader ≠ []) (h2 : cl.env.J.parse s.parentHeader = none)
    {st' : σ} (hcb : cl.callback j s.st = (.ok (), st')) :
    ∃ e s', (forwardEvent cl j).run s = (.exc e, s') ∧ s'.out = s.out ++ [.callback j] := by
  have hd : dapParent cl s = .exc .parseError := by
    cases hh : s.parentHeader with
    | nil => exact absurd hh h1
    | cons a l => rw [hh] at h2; simp [dapParent, hh, Codec.parseZmq, h2]
  refine ⟨.parseError, afterHeader cl s j, ?_, rfl⟩
  rw [run_forwardEvent, hcb, andThen_ok, hd, andThen_exc]

/-! ## Examples -/

def eventText : Str := lit "{\"event\":\"stopped\",\"type\":\"event\"}"

/-- Everything that arrives: the start request, a parent header, an event. -/
def eventStart : Dap Nat :=
  Dap.initial 0 [dapFrame eventText] [lit "REQ"] [lit "{\"msg_id\":\"h\"}"]

def eventTop : Dap Nat := ((startDebugger sampleClient).run eventStart).2
def eventPolled : Dap Nat := ((afterPoll sampleClient true false true).run eventTop).2
def eventDone : Dap Nat := ((processOne sampleClient eventText).run eventPolled).2

theorem eventDone_run : DapRun sampleClient eventStart (.ok ()) eventDone := by
  have h1 : DapReach sampleClient eventStart eventTop := .start (run_ok_of (by decide +kernel))
  have hq : eventPolled.queue = [eventText] := by decide +kernel
  have h2 : (processOne sampleClient eventText).run eventPolled = (.ok (), eventDone) := run_ok_of (by decide +kernel)
  have h3 : Process sampleClient eventPolled (.ok ()) eventDone := .more hq h2 (.empty (by decide +kernel))
  have h4 : PollOk eventTop true false true :=
    ⟨rfl, fun _ => by decide +kernel, fun h => (by cases h), fun _ => by decide +kernel⟩
  exact .left h1 (.done (by decide +kernel) h4 (run_ok_of (by decide +kernel)) h3)

/-- The run publishes the event, with the parent header. -/
example : Attributed sampleEnv eventDone.out ∧ (eventDone.out.filterMap fun
      | .pub m _ => some (m.body.parent, m.body.content)
      | _ => none) =
    [(.obj [(lit "msg_id", .str (lit "h"))],
      .obj [(lit "event", .str (lit "stopped")), (lit "type", .str (lit "event"))])] :=
  ⟨C58_attributed (cl := sampleClient) 0 _ _ _ eventDone_run, by decide +kernel⟩

/-- The published bytes can be read. -/
example : ∃ m wire, DapEv.pub m wire ∈ eventDone.out ∧
    deserializePub sampleEnv.C sampleEnv.J sampleEnv.auth wire = .ok m := by
  have h : ∃ pre m wire, eventDone.out = pre ++ [.pub m wire] ∧ m.body.content.canon = true := by
    have hl : (eventDone.out.getLast?.any fun
      | .pub m _ => m.body.content.canon
      | _ => false) = true := by decide +kernel
    cases hx : eventDone.out.getLast? with
    | none => rw [hx] at hl; cases hl
    | some x =>
      rw [hx] at hl
      obtain ⟨ys, hy⟩ := List.getLast?_eq_some_iff.1 hx
      cases x with
      | pub m w => exact ⟨ys, m, w, hy, hl⟩
      | tcp _ => cases hl
      | reply _ => cases hl
      | header _ => cases hl
      | callback _ => cases hl
      | event _ => cases hl
  obtain ⟨pre, m, w, h1, h2⟩ := h
  exact ⟨m, w, by rw [h1]; simp, C58_readable (cl := sampleClient) stdCodec_lawful
    (C58_attributed (cl := sampleClient) 0 _ _ _ eventDone_run pre m w [] h1) h2⟩

example : ∃ m wire, (forwardEvent sampleClient (.obj [(lit "seq", .int 3)])).run
    { sampleDap [] [] false with parentHeader := lit "{\"msg_id\":\"h\"}" } =
      (.ok (), { sampleDap [] [] false with
        parentHeader := lit "{\"msg_id\":\"h\"}", st := 1, guids := 1, clocks := 1,
        out := [.callback (.obj [(lit "seq", .int 3)]), .pub m wire] }) ∧
      m.body.parent = .obj [(lit "msg_id", .str (lit "h"))] := by
  obtain ⟨m, wire, h1, _, _, h2, _⟩ := C58_forward (cl := sampleClient) (j := .obj [(lit "seq", .int 3)])
    (p := .obj [(lit "msg_id", .str (lit "h"))])
    (s := { sampleDap [] [] false with parentHeader := lit "{\"msg_id\":\"h\"}" }) stdCodec_lawful
    (utf8_lit (s := "user") (by decide)) (utf8_lit (s := "session") (by decide)) (fun _ => sampleEnv_sane.now rfl 0)
    ⟨by decide, (jsonUtf8_iff _).2 (by decide +kernel)⟩ (.inr ⟨by decide +kernel, by decide +kernel⟩) rfl
  exact ⟨m, wire, h1, h2⟩

example : ∃ e s', (forwardEvent sampleClient (.obj [])).run
    { sampleDap [] [] false with parentHeader := lit "garbage" } = (.exc e, s') ∧ s'.out = [] ++ [.callback (.obj [])] :=
  C58_bad_parent (cl := sampleClient) (s := { sampleDap [] [] false with parentHeader := lit "garbage" })
    (by decide +kernel) (by decide +kernel) rfl

end Xeus
