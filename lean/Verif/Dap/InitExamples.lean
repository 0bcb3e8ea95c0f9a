import Verif.Dap.InitProps

/-!
# The initialization sequence: examples, and the hazard of C57
-/

namespace Xeus

open Spec K

def initText : Str := lit "{\"event\":\"initialized\",\"seq\":7,\"type\":\"event\"}"
def confText : Str := lit "{\"command\":\"configurationDone\",\"type\":\"response\"}"
def attachText : Str := lit "{\"command\":\"attach\",\"type\":\"response\"}"
def outputText : Str := lit "{\"event\":\"output\",\"type\":\"event\"}"

/-- The adapter answers in an unusual order; one message is already queued. -/
def initMsgs : List DapMsg := [plainMsg attachText, plainMsg initText, plainMsg outputText, plainMsg confText]

/-- Its bytes, in chunks: the `attach` response and the event come together. -/
def initChunks : List Str :=
  [dapFrame attachText ++ dapFrame initText, (dapFrame outputText ++ dapFrame confText).take 30,
   (dapFrame outputText ++ dapFrame confText).drop 30]

def initState : Dap Nat := { sampleDap [outputText] initChunks true with waitAttach := true }

theorem initMsgs_ok : ∀ m ∈ initMsgs, m.Ok := by
  intro m hm
  simp only [initMsgs, List.mem_cons, List.not_mem_nil, or_false] at hm
  rcases hm with rfl | rfl | rfl | rfl <;> exact plainMsg_ok (by decide)

theorem initTexts_wf : ∀ x ∈ initState.queue ++ bodies initMsgs, DapText sampleEnv.J x := by
  intro x hx
  have hx : x ∈ [outputText, attachText, initText, outputText, confText] := hx
  simp only [List.mem_cons, List.not_mem_nil, or_false] at hx
  have ho : DapText sampleEnv.J outputText :=
    ⟨.obj [(lit "event", .str (lit "output")), (lit "type", .str (lit "event"))], .str (lit "event"),
      by decide +kernel, by decide +kernel, by decide +kernel, by decide +kernel⟩
  rcases hx with rfl | rfl | rfl | rfl | rfl
  · exact ho
  · exact ⟨.obj [(lit "command", .str (lit "attach")), (lit "type", .str (lit "response"))], .str (lit "response"),
      by decide +kernel, by decide +kernel, by decide +kernel, by decide +kernel⟩
  · exact ⟨.obj [(lit "event", .str (lit "initialized")), (lit "seq", .int 7), (lit "type", .str (lit "event"))],
      .str (lit "event"), by decide +kernel, by decide +kernel, by decide +kernel, by decide +kernel⟩
  · exact ho
  · exact ⟨.obj [(lit "command", .str (lit "configurationDone")), (lit "type", .str (lit "response"))],
      .str (lit "response"), by decide +kernel, by decide +kernel, by decide +kernel, by decide +kernel⟩

example : ∃ content m wire attach ms' s', (handleInitSequence sampleClient).run initState = (.ok (), s') ∧
    s'.out = [.tcp (dapFrame content), .callback (.obj [(lit "event", .str (lit "initialized")), (lit "seq", .int 7),
      (lit "type", .str (lit "event"))]), .pub m wire, .reply attach] ∧
    sampleEnv.J.parse content = some (.obj [(lit "command", .str (lit "configurationDone")), (lit "seq", .int 8),
      (lit "type", .str (lit "request"))]) ∧ s'.queue ++ bodies ms' = [outputText, outputText] := by
  obtain ⟨content, m, wire, attach, ms', s', h1, h2, h3, _, _, _, _, _, _, _, _, _, _, _, h4⟩ := C57_init
    (cl := sampleClient) stdCodec_lawful (utf8_lit (s := "user") (by decide)) (utf8_lit (s := "session") (by decide))
    (fun _ => sampleEnv_sane.now rfl 0) initMsgs_ok (s := initState) (by decide +kernel) rfl rfl initTexts_wf
    (ti := initText) (tc := confText) (ta := attachText) (by decide +kernel) (by decide +kernel) (by decide +kernel)
    (ij := .obj [(lit "event", .str (lit "initialized")), (lit "seq", .int 7), (lit "type", .str (lit "event"))])
    (aj := .obj [(lit "command", .str (lit "attach")), (lit "type", .str (lit "response"))]) (p := .obj [])
    (by decide +kernel) (by decide +kernel) (n := 7) (by decide +kernel) (by decide) (by decide) (.inl ⟨rfl, rfl⟩) rfl
  refine ⟨content, m, wire, attach, ms', s', h1, h2, h3, ?_⟩
  rw [h4]
  decide +kernel

/-- The overflow. -/
def maxText : Str := lit "{\"event\":\"initialized\",\"seq\":2147483647,\"type\":\"event\"}"

example : ∃ why s', (handleInitSequence sampleClient).run (sampleDap [maxText] [] true) = (.ub why, s') ∧ s'.out = [] := by
  refine C57_overflow (cl := sampleClient) (ms := []) (by simp) rfl rfl ?_ (ti := maxText) (by decide +kernel)
    (ij := .obj [(lit "event", .str (lit "initialized")), (lit "seq", .int 2147483647), (lit "type", .str (lit "event"))])
    (by decide +kernel) (by decide +kernel)
  intro x hx
  have hx : x = maxText := by simpa [sampleDap, bodies] using hx
  subst hx
  exact ⟨.obj [(lit "event", .str (lit "initialized")), (lit "seq", .int 2147483647), (lit "type", .str (lit "event"))],
    .str (lit "event"), by decide +kernel, by decide +kernel, by decide +kernel, by decide +kernel⟩

/-- The request that starts the sequence. -/
def attachRequest : Str := lit "{\"command\":\"attach\",\"type\":\"request\"}"

/-- Waiting for `attach`, which has arrived, together with everything the adapter sends. -/
def attachState : Dap Nat :=
  { sampleDap [outputText] initChunks false with waitAttach := true, ctlIn := [dapFrame attachRequest] }

example : ∃ s' : Dap Nat, (handleControl sampleClient).run attachState = (.ok (), { s' with waitAttach := false }) := by
  obtain ⟨content, m, wire, attach, ms', s', h1, _⟩ := C57_init
    (cl := sampleClient) stdCodec_lawful (utf8_lit (s := "user") (by decide)) (utf8_lit (s := "session") (by decide))
    (fun _ => sampleEnv_sane.now rfl 0) initMsgs_ok
    (s := { attachState with ctlIn := [], replyDue := true, out := attachState.out ++ [.tcp (dapFrame attachRequest)] })
    (by decide +kernel) rfl rfl initTexts_wf
    (ti := initText) (tc := confText) (ta := attachText) (by decide +kernel) (by decide +kernel) (by decide +kernel)
    (ij := .obj [(lit "event", .str (lit "initialized")), (lit "seq", .int 7), (lit "type", .str (lit "event"))])
    (aj := .obj [(lit "command", .str (lit "attach")), (lit "type", .str (lit "response"))]) (p := .obj [])
    (by decide +kernel) (by decide +kernel) (n := 7) (by decide +kernel) (by decide) (by decide) (.inl ⟨rfl, rfl⟩) rfl
  exact ⟨s', C57_attach_request (j := .obj [(lit "command", .str (lit "attach")), (lit "type", .str (lit "request"))]) rfl
    rfl rfl (by decide +kernel) (by decide +kernel) h1⟩

example : ((handleControl sampleClient).run { sampleDap [] [] false with
    waitAttach := true, ctlIn := [dapFrame (lit "{\"command\":\"initialize\"}")] }).2.out =
      [.tcp (dapFrame (lit "{\"command\":\"initialize\"}"))] := by
  rw [C57_other_request (text := lit "{\"command\":\"initialize\"}") (rest := [])
    (kvs := [(lit "command", .str (lit "initialize"))]) rfl rfl rfl (by decide +kernel) (by decide +kernel)]
  rfl

example : ((handleControl sampleClient).run { sampleDap [] [] false with ctlIn := [lit "anything"] }).2.out =
    [.tcp (lit "anything")] := by
  rw [C57_plain_request (raw := lit "anything") (rest := []) rfl rfl rfl]
  rfl

/-- An iteration that receives a parent header when nothing is waited for. -/
def plainState : Dap Nat := { sampleDap [] [] false with hdrIn := [lit "h"] }

example : (handleHeader.run plainState).2.waitAttach = false := by
  refine C57_once (cl := sampleClient) (s := plainState)
    (r := .ok ()) (.done (hdr := true) (ctl := false) (tcp := false) rfl ⟨rfl, fun _ => by decide, ?_, ?_⟩ ?_ (.empty rfl)) rfl
  · intro h; cases h
  · intro h; cases h
  · simp only [afterPoll, whenK, handleHeader, run_bind, run_lift, andThen_ok, if_true, Bool.false_eq_true, if_false,
      run_pure, plainState]

/-- **C57**, a hazard.  Polling reported the `attach` request and data of the adapter together; the initialization sequence
consumed the data; the client, believing that there still is some, then blocks in `handle_tcp_socket` until the adapter
sends something else, and serves neither the kernel nor parent headers meanwhile. -/
theorem C57_stale_witness : ∃ s : Dap Nat, PollOk s false true true ∧
    ((afterPoll sampleClient false true true).run s).1 = .hang ∧
    ((handleControl sampleClient).run s).1 = .ok () ∧ ((handleControl sampleClient).run s).2.tcpIn = [] ∧
    ((handleControl sampleClient).run s).2.replyDue = false := by
  refine ⟨attachState, ⟨rfl, fun h => (by cases h), fun _ => ⟨by decide +kernel, rfl⟩, fun _ => by decide +kernel⟩, ?_, ?_, ?_, ?_⟩
  · decide +kernel
  · decide +kernel
  · decide +kernel
  · decide +kernel

end Xeus
