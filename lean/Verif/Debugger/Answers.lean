import Verif.Debugger.Traffic

/-!
# The debugger: the course of single requests
-/

namespace Xeus.Dbg

open Xeus Spec K

variable {σ : Type} {d : Debugger σ}

theorem at_command {m : Json} {name : Str} (h : At m [lit "command"] (.str name)) : m.cidx (lit "command") = .ok (.str name) := by
  obtain ⟨w, hw, hv⟩ := at_cons.1 h
  rw [at_nil] at hv
  subst hv
  exact cidx_of_find hw

theorem at_one {m v : Json} {k : Str} (h : At m [k] v) : m.cidx k = .ok v := by
  obtain ⟨w, hw, hv⟩ := at_cons.1 h
  rw [at_nil] at hv
  subst hv
  exact cidx_of_find hw

theorem isText_str (a : Str) (b : String) : isText (.str a) b = decide (a = lit b) := by
  simp [isText]

/-- A request that is neither `initialize` nor `disconnect`. -/
theorem run_ordinary {header m : Json} {name : Str} (hc : At m [lit "command"] (.str name)) (hi : name ≠ lit "initialize")
    (hd : name ≠ lit "disconnect") (s : State σ) :
    (processRequest d header m).run s = (dispatch d header m (.obj []) name (d.requestHandler false name)).run s := by
  have h1 : isText (.str name) "initialize" = false := by simp [isText_str, hi]
  have h2 : isText (.str name) "disconnect" = false := by simp [isText_str, hd]
  rw [run_processRequest, at_command hc, andThen_ok]
  simp only [body, run_bind, initPart_other h1, andThen_ok, run_ofRes, Json.getStr, disconnect_other h2]
  rcases (dispatch d header m (.obj []) name (d.requestHandler false name)).run s with ⟨r, s'⟩
  cases r <;> simp only [andThen_ok, andThen_exc, andThen_ub, andThen_hang]

/-- A command without a handler that may run before the start. -/
theorem no_plain {name : Str} (h : name ≠ lit "debugInfo") (hu : ∀ f, (name, false, f) ∉ d.requests) :
    d.requestHandler false name = none := by
  cases hh : d.requestHandler false name with
  | none => rfl
  | some f =>
    rcases List.mem_append.1 (requestHandler_mem hh) with hm | hm
    · simp only [List.mem_cons, List.not_mem_nil, or_false, Prod.mk.injEq] at hm
      rcases hm with ⟨rfl, _⟩ | ⟨_, h', _⟩ | ⟨_, h', _⟩ | ⟨_, h', _⟩ | ⟨_, h', _⟩ | ⟨_, h', _⟩
      · exact absurd rfl h
      all_goals cases h'
    · exact absurd hm (hu f)

theorem lits_ne₄ : lit "debugInfo" ≠ lit "initialize" ∧ lit "debugInfo" ≠ lit "disconnect" ∧
    lit "initialize" ≠ lit "debugInfo" ∧ lit "initialize" ≠ lit "disconnect" := by decide +kernel

theorem handler_debugInfo (hd : Extends d) : d.requestHandler false (lit "debugInfo") = some .debugInfo := by
  rw [requestHandler_builtin hd (by simp [builtinCommands]), find_builtin]
  simp

/-- The answer to debugInfo. -/
def infoAnswer (i : Info) (seq : Json) (s : State σ) : Json :=
  response seq (.str (lit "debugInfo"))
    (infoBody i s.started (if s.started then s.breakpoints.map breakpointEntry else []) s.threads)

theorem run_debugInfo (hd : Extends d) {header m seq : Json} (hm : DebugInfo m seq) {s : State σ} {i : Info}
    (hi : d.info s.st = .ok i) : (processRequest d header m).run s = (.ok (infoAnswer i seq s), s) := by
  rw [run_ordinary hm.command lits_ne₄.1 lits_ne₄.2.1, handler_debugInfo hd]
  simp only [dispatch, runHandler, debugInfo, run_bind, run_read, andThen_ok, run_readR, hi, run_ofRes, at_one hm.seq,
    at_command hm.command, infoAnswer]

theorem infoAnswer_started (i : Info) (seq : Json) (s : State σ) :
    At (infoAnswer i seq s) [lit "body", lit "isStarted"] (.bool s.started) := by
  refine .member (v := infoBody i s.started (if s.started then s.breakpoints.map breakpointEntry else []) s.threads) ?_
    (.member ?_ .here)
  · simp [infoAnswer, response, Json.find?, Json.lookup]
  · have h : lit "breakpoints" ≠ lit "isStarted" ∧ lit "exceptionPaths" ≠ lit "isStarted" ∧
      lit "hashMethod" ≠ lit "isStarted" ∧ lit "hashSeed" ≠ lit "isStarted" := by decide +kernel
    simp [infoBody, Json.find?, Json.lookup, h]

theorem infoAnswer_threads (i : Info) (seq : Json) (s : State σ) :
    At (infoAnswer i seq s) [lit "body", lit "stoppedThreads"] (.arr (s.threads.map .int)) := by
  refine .member (v := infoBody i s.started (if s.started then s.breakpoints.map breakpointEntry else []) s.threads) ?_
    (.member ?_ .here)
  · simp [infoAnswer, response, Json.find?, Json.lookup]
  · have h : lit "breakpoints" ≠ lit "stoppedThreads" ∧ lit "exceptionPaths" ≠ lit "stoppedThreads" ∧
      lit "hashMethod" ≠ lit "stoppedThreads" ∧ lit "hashSeed" ≠ lit "stoppedThreads" ∧
      lit "isStarted" ≠ lit "stoppedThreads" ∧ lit "richRendering" ≠ lit "stoppedThreads" := by decide +kernel
    simp [infoBody, Json.find?, Json.lookup, h]

theorem infoAnswer_breakpoints (i : Info) (seq : Json) (s : State σ) :
    At (infoAnswer i seq s) [lit "body", lit "breakpoints"]
      (.arr (if s.started then s.breakpoints.map breakpointEntry else [])) := by
  refine .member (v := infoBody i s.started (if s.started then s.breakpoints.map breakpointEntry else []) s.threads) ?_
    (.member ?_ .here)
  · simp [infoAnswer, response, Json.find?, Json.lookup]
  · simp [infoBody, Json.find?, Json.lookup]

theorem breakpointEntry_at (src : Str) (l : List Json) :
    At (breakpointEntry (src, .arr l)) [lit "source"] (.str src) ∧
      At (breakpointEntry (src, .arr l)) [lit "breakpoints"] (.arr l) ∧
      ∀ k, k ≠ lit "source" → k ≠ lit "breakpoints" → (breakpointEntry (src, .arr l)).find? k = none := by
  have h : lit "breakpoints" ≠ lit "source" := by decide +kernel
  refine ⟨.member ?_ .here, .member ?_ .here, fun k h₁ h₂ => ?_⟩
  · simp [breakpointEntry, Json.find?, Json.lookup, h]
  · simp [breakpointEntry, Json.find?, Json.lookup]
  · simp [breakpointEntry, Json.find?, Json.lookup, Ne.symm h₁, Ne.symm h₂]

/-- A disconnection that was answered leaves nothing of what was there. -/
theorem disconnect_resets {header m r : Json} {s s' : State σ} (hc : At m [lit "command"] (.str (lit "disconnect")))
    (h : (processRequest d header m).run s = (.ok r, s')) :
    s'.started = false ∧ s'.breakpoints = [] ∧ s'.threads = [] ∧ ∃ l, s'.out = l ++ [.stop] := by
  rw [run_processRequest, at_command hc, andThen_ok] at h
  have hdis : isText (.str (lit "disconnect")) "disconnect" = true := by simp [isText]
  rcases hb : (body d header m (.str (lit "disconnect"))).run s with ⟨rb, s₁⟩
  rw [hb] at h
  cases rb with
  | exc e => simp at h
  | ub w => simp at h
  | hang => simp at h
  | ok reply =>
    simp only [andThen_ok, disconnectPart, hdis, if_true, run_bind, run_modify, callStop, run_lift] at h
    rcases hst : d.stop s₁.st with ⟨rs, st⟩
    rw [hst] at h
    cases rs with
    | exc e => simp at h
    | ub w => simp at h
    | hang => simp at h
    | ok u =>
      simp only [andThen_ok, Prod.mk.injEq] at h
      rw [← h.2]
      exact ⟨rfl, rfl, rfl, _, rfl⟩

/-- A request forwarded to the adapter, up to its answer. -/
theorem run_forward {m : Json} {content raw : Str} {reply : Json} {rs : List Str} {s : State σ}
    (hc : d.J.dump .strict m = some content) (hr : s.replies = raw :: rs) (hp : d.J.parse raw = some reply) :
    (forwardMessage d m).run s =
      (.ok reply, { s with replies := rs, out := s.out ++ [.request (dapFrame content)] }) := by
  simp only [forwardMessage, run_bind, run_ofRes, Codec.writeZmq, hc, andThen_ok, emit, run_modify, recvReply, run_lift, hr,
    Codec.parseZmq, hp]

theorem run_sendHeader {header : Json} {hb ack : Str} {as : List Str} {s : State σ}
    (hh : d.J.dump .strict header = some hb) (ha : s.acks = ack :: as) :
    (sendHeader d header).run s = (.ok (), { s with acks := as, out := s.out ++ [.header hb] }) := by
  simp only [sendHeader, run_bind, run_ofRes, Codec.writeZmq, hh, andThen_ok, emit, run_modify, recvAck, run_lift, ha, run_pure]

theorem handler_true (hd : Extends d) :
    d.requestHandler true (lit "dumpCell") = some .dumpCell ∧ d.requestHandler true (lit "source") = some .source ∧
      d.requestHandler true (lit "stackTrace") = some .stackTrace ∧
      d.requestHandler true (lit "variables") = some .variables := by
  have h : lit "variables" ≠ lit "dumpCell" ∧ lit "stackTrace" ≠ lit "dumpCell" ∧ lit "source" ≠ lit "dumpCell" ∧
      lit "setBreakpoints" ≠ lit "dumpCell" := by decide +kernel
  have h' : lit "variables" ≠ lit "source" ∧ lit "stackTrace" ≠ lit "source" := by decide +kernel
  have h'' : lit "variables" ≠ lit "stackTrace" := by decide +kernel
  refine ⟨?_, ?_, ?_, ?_⟩ <;> rw [requestHandler_builtin hd (by simp [builtinCommands]), find_builtin]
  · simp [h]
  · simp [h']
  · simp [h'']
  · simp

/-- The state in which the handler of a request runs. -/
def afterHeader (hb : Str) (as : List Str) (s : State σ) : State σ := { s with acks := as, out := s.out ++ [.header hb] }

/-- A request of the class that requires a running debugger. -/
theorem run_started (hd : Extends d) {header m : Json} {name : Str} (hc : At m [lit "command"] (.str name))
    (hn : name ∈ builtinCommands) (hne : name ≠ lit "debugInfo") {h : Handler σ} (hh : d.requestHandler true name = some h)
    {hb ack : Str} {as : List Str} {s : State σ} (hs : s.started = true) (hdump : d.J.dump .strict header = some hb)
    (ha : s.acks = ack :: as) :
    (processRequest d header m).run s = (runHandler d m h).run (afterHeader hb as s) := by
  have hni : lit "initialize" ∉ builtinCommands ∧ lit "disconnect" ∉ builtinCommands := by decide +kernel
  rw [run_ordinary hc (fun h => hni.1 (h ▸ hn)) (fun h => hni.2 (h ▸ hn)),
    no_plain hne fun f hf => (hd.requests _ _ _ hf).1 hn]
  simp only [dispatch, whenStarted, run_bind, run_read, andThen_ok, hs, if_true, run_sendHeader hdump ha, hh, startedRequest,
    afterHeader]

theorem answers_response (seq : Json) (command k : Str) (v : Json) :
    Answers (response seq (.str command) (.obj [(k, v)])) seq command k v := by
  have h : lit "body" ≠ lit "command" ∧ lit "body" ≠ lit "request_seq" ∧ lit "command" ≠ lit "request_seq" ∧
    lit "body" ≠ lit "success" ∧ lit "command" ≠ lit "success" ∧ lit "request_seq" ≠ lit "success" := by decide +kernel
  have h' : lit "body" ≠ lit "type" ∧ lit "command" ≠ lit "type" ∧ lit "request_seq" ≠ lit "type" ∧
    lit "success" ≠ lit "type" := by decide +kernel
  refine ⟨.member (v := .obj [(k, v)]) ?_ (.member ?_ .here), .member ?_ .here, .member ?_ .here, .member ?_ .here,
    .member ?_ .here⟩ <;> simp [response, Json.find?, Json.lookup, h, h']

theorem cellCode_text {m : Json} {code : Str} (h : At m [lit "arguments", lit "code"] (.str code)) : cellCode m = .ok code := by
  obtain ⟨a, ha, h⟩ := at_cons.1 h
  obtain ⟨c, hc, h⟩ := at_cons.1 h
  rw [at_nil] at h
  subst h
  have e : (do let a ← m.cidx (lit "arguments"); let c ← a.cidx (lit "code"); c.getStr : Res Str) = .ok code := by
    simp only [cidx_of_find ha, Res.bind_ok, cidx_of_find hc, Json.getStr]
  simp only [cellCode, e]

/-- What dumpCell does. -/
theorem run_dumpCell (hd : Extends d) {header m seq : Json} {code path : Str} (hm : DumpCell m seq code)
    {hb ack : Str} {as : List Str} {s : State σ} (hs : s.started = true) (hdump : d.J.dump .strict header = some hb)
    (ha : s.acks = ack :: as) (hp : d.cellFile code s.st = .ok path) :
    (processRequest d header m).run s =
      (.ok (response seq (.str (lit "dumpCell")) (.obj [(lit "sourcePath", .str path)])),
        dump d path code (afterHeader hb as s)) := by
  rw [run_started hd hm.command (by simp [builtinCommands]) (by decide +kernel) (handler_true hd).1 hs hdump ha]
  simp only [runHandler, dumpCell, run_bind, run_ofRes, cellCode_text hm.code, andThen_ok, run_readR]
  have e : d.cellFile code (afterHeader hb as s).st = .ok path := hp
  simp only [e, andThen_ok, run_modify, at_one hm.seq, at_command hm.command, run_pure]

/-- What source does. -/
theorem run_source (hd : Extends d) {header m seq : Json} {path : Str} (hm : Source m seq path)
    {hb ack : Str} {as : List Str} {s : State σ} (hs : s.started = true) (hdump : d.J.dump .strict header = some hb)
    (ha : s.acks = ack :: as) :
    (processRequest d header m).run s =
      (.ok (sourceReply (if d.readable path then s.files path else none) seq (.str (lit "source"))), afterHeader hb as s) := by
  rw [run_started hd hm.command (by simp [builtinCommands]) (by decide +kernel) (handler_true hd).2.1 hs hdump ha]
  have e : sourcePathOrEmpty m = .ok path := by simp only [sourcePathOrEmpty, sourcePath_ok.2 hm.path]
  have ef : (afterHeader hb as s).files = s.files := rfl
  simp only [runHandler, source, run_bind, run_ofRes, e, andThen_ok, run_read, at_one hm.seq, at_command hm.command, run_pure, ef]

/-- The state after a request was forwarded. -/
def afterForward (hb content : Str) (as rs : List Str) (s : State σ) : State σ :=
  { s with acks := as, replies := rs, out := s.out ++ [.header hb, .request (dapFrame content)] }

theorem run_stackTrace (hd : Extends d) {header m : Json} (hc : At m [lit "command"] (.str (lit "stackTrace")))
    {hb ack content raw : Str} {as rs : List Str} {reply : Json} {s : State σ} (hs : s.started = true)
    (hdump : d.J.dump .strict header = some hb) (ha : s.acks = ack :: as) (hm : d.J.dump .strict m = some content)
    (hr : s.replies = raw :: rs) (hp : d.J.parse raw = some reply) :
    (processRequest d header m).run s = (cutReply reply, afterForward hb content as rs s) := by
  rw [run_started hd hc (by simp [builtinCommands]) (by decide +kernel) (handler_true hd).2.2.1 hs hdump ha]
  simp only [runHandler, stackTrace, run_bind]
  rw [run_forward (d := d) (content := content) (raw := raw) (rs := rs) (reply := reply) hm (by exact hr) hp, andThen_ok,
    run_ofRes]
  simp only [afterHeader, afterForward, List.append_assoc, List.cons_append, List.nil_append]

theorem run_variables (hd : Extends d) {header m args : Json} (hc : At m [lit "command"] (.str (lit "variables")))
    (hargs : At m [lit "arguments"] args)
    {hb ack content raw : Str} {as rs : List Str} {reply : Json} {s : State σ} (hs : s.started = true)
    (hdump : d.J.dump .strict header = some hb) (ha : s.acks = ack :: as) (hm : d.J.dump .strict m = some content)
    (hr : s.replies = raw :: rs) (hp : d.J.parse raw = some reply) :
    (processRequest d header m).run s = (page args reply, afterForward hb content as rs s) := by
  rw [run_started hd hc (by simp [builtinCommands]) (by decide +kernel) (handler_true hd).2.2.2 hs hdump ha]
  simp only [runHandler, variables, run_bind]
  rw [run_forward (d := d) (content := content) (raw := raw) (rs := rs) (reply := reply) hm (by exact hr) hp, andThen_ok,
    run_ofRes, at_one hargs, andThen_ok, run_ofRes]
  simp only [afterHeader, afterForward, List.append_assoc, List.cons_append, List.nil_append]

end Xeus.Dbg
