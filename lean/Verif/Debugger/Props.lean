import Verif.Debugger.Answers
import Verif.Debugger.Sample

/-!
# The debugger: properties C59 to C62
-/

namespace Xeus.Dbg

open Xeus Spec K

variable {σ : Type}

/-! ## C59: nothing reaches a debugger that was not started -/

/-- **C59, one request.** A request that is not one of those handled locally is answered with an empty object by a
debugger that is not running; nothing else happens. -/
theorem C59_refused (d : Debugger σ) {header m : Json} {name : Str} (hc : At m [lit "command"] (.str name))
    (hi : name ≠ lit "initialize") (hdc : name ≠ lit "disconnect") (hdi : name ≠ lit "debugInfo")
    (hu : ∀ f, (name, false, f) ∉ d.requests) {s : State σ} (hs : s.started = false) :
    (processRequest d header m).run s = (.ok (.obj []), s) := by
  rw [run_ordinary hc hi hdc, no_plain hdi hu]
  simp only [dispatch, whenStarted, run_bind, run_read, andThen_ok, hs, Bool.false_eq_true, if_false, run_pure]

/-- **C59, whole histories.** Whatever the requests and events, whenever something was sent to the adapter client the
debugger was running: it had been started successfully and not been stopped since.  This includes the last call, whatever
becomes of it. -/
theorem C59_traffic {d : Debugger σ} (hd : Local d) {st : σ} {files : Str → Option Str} {replies acks : List Str}
    {steps : List Step} {s : State σ} (h : Hist d (initial st files replies acks) steps s) (c : Call)
    {pre post : List Event} {e : Event} (ho : ((runCall d c).run s).2.out = pre ++ e :: post)
    (ht : traffic e = true) : Running pre :=
  (traffic_call hd c s (traffic_hist hd h)).bracketed pre e post ho ht

/-- **C59, the report.** debugInfo tells whether the debugger is running. -/
theorem C59_report {d : Debugger σ} (hd : Local d) (he : Extends d) {st : σ} {files : Str → Option Str}
    {replies acks : List Str} {steps : List Step} {s : State σ} (h : Hist d (initial st files replies acks) steps s)
    {header m seq : Json} (hm : DebugInfo m seq) {i : Info} (hi : d.info s.st = .ok i) :
    ∃ answer b, (processRequest d header m).run s = (.ok answer, s) ∧ At answer [lit "body", lit "isStarted"] (.bool b) ∧
      (b = true ↔ Running s.out) :=
  ⟨_, _, run_debugInfo he hm hi, infoAnswer_started i seq s, (traffic_hist hd h).started⟩

/-- **C59, a failing start.** If `start` fails, the frontend is told so and nothing is sent. -/
theorem C59_start_fails (d : Debugger σ) {header m seq : Json} (hc : At m [lit "command"] (.str (lit "initialize")))
    (hseq : At m [lit "seq"] seq) (hu : ∀ f, (lit "initialize", false, f) ∉ d.requests) {s : State σ} {st : σ}
    (hs : s.started = false) (hst : d.start s.st = (.ok false, st)) :
    ∃ answer, (processRequest d header m).run s = (.ok answer, { s with st := st, out := s.out ++ [.start false] }) ∧
      At answer [lit "success"] (.bool false) ∧ At answer [lit "request_seq"] seq ∧
      At answer [lit "command"] (.str (lit "initialize")) ∧ At answer [lit "type"] (.str (lit "response")) := by
  have h1 : isText (.str (lit "initialize")) "initialize" = true := by simp [isText]
  have h2 : isText (.str (lit "initialize")) "disconnect" = false := by simp [isText_str, lits_ne₄.2.2.2]
  refine ⟨startFailed seq, ?_, ?_, ?_, ?_, ?_⟩
  · rw [run_processRequest, at_command hc, andThen_ok]
    simp only [body, run_bind, initPart, h1, if_true, run_read, andThen_ok, hs, Bool.false_eq_true, if_false, tryStart,
      callStart, run_lift, hst, run_ofRes, at_one hseq, run_pure, Json.getStr, no_plain lits_ne₄.2.2.1 hu, dispatch,
      whenStarted, disconnect_other h2]
  · have h : lit "command" ≠ lit "success" ∧ lit "request_seq" ≠ lit "success" ∧ lit "seq" ≠ lit "success" := by
      decide +kernel
    exact .member (by simp [startFailed, Json.find?, Json.lookup, h]) .here
  · have h : lit "command" ≠ lit "request_seq" := by decide +kernel
    exact .member (by simp [startFailed, Json.find?, Json.lookup, h]) .here
  · exact .member (by simp [startFailed, Json.find?, Json.lookup]) .here
  · have h : lit "command" ≠ lit "type" ∧ lit "request_seq" ≠ lit "type" ∧ lit "seq" ≠ lit "type" ∧ lit "success" ≠ lit "type" := by
      decide +kernel
    exact .member (by simp [startFailed, Json.find?, Json.lookup, h]) .here

section Examples
open Sample

/-- Requests to a debugger that is not running, then a whole session, and a request after it. -/
def dbgSession : List Call :=
  [.request header (setBps "a.py" [1]), .request header (request "threads" .null),
   .request header (request "initialize" .null), .request header (setBps "b.py" [3, 4]), .event (event "stopped" 5),
   .request header (setBps "a.py" [1]), .event (event "stopped" 2), .event (event "output" 2),
   .request header (setBps "b.py" [7]), .event (event "continued" 5), .request header (request "ping" .null)]

def dbgStart : State Nat := initial 0 noFiles (List.replicate 9 okAnswer) (List.replicate 9 [])

/-- The outcome of that session. -/
theorem dbgSession_view : ((calls debugger dbgStart dbgSession).map fun x => (x.2.started, x.2.breakpoints, x.2.threads)) =
    some (true, [(lit "a.py", lines [1]), (lit "b.py", lines [7])], [2]) := by decide +kernel

theorem dbgSession_hist : ∃ steps s, Hist debugger dbgStart steps s ∧ s.started = true ∧
    s.breakpoints = [(lit "a.py", lines [1]), (lit "b.py", lines [7])] ∧ s.threads = [2] := by
  obtain ⟨x, h₁, h₂⟩ := Option.map_eq_some_iff.1 dbgSession_view
  simp only [Prod.mk.injEq] at h₂
  have := hist_calls (.nil (s₀ := dbgStart)) h₁
  exact ⟨x.1, x.2, by simpa using this, h₂.1, h₂.2.1, h₂.2.2⟩

/-- A request that is refused. -/
example : (processRequest debugger header (setBps "a.py" [1])).run dbgStart = (.ok (.obj []), dbgStart) :=
  C59_refused debugger (.member (by decide +kernel) .here) (name := lit "setBreakpoints") (by decide +kernel) (by decide +kernel)
    (by decide +kernel) (fun f hf => by
      simp only [debugger, List.mem_singleton, Prod.mk.injEq] at hf
      exact absurd hf.1 (by decide +kernel)) rfl

/-- What was sent in the session: nothing before the start. -/
example : ∃ steps s, Hist debugger dbgStart steps s ∧ ∀ pre e post,
    ((runCall debugger (.request header (request "threads" .null))).run s).2.out = pre ++ e :: post →
      traffic e = true → Running pre := by
  obtain ⟨steps, s, h, _⟩ := dbgSession_hist
  exact ⟨steps, s, h, fun pre e post ho ht => C59_traffic debugger_local h _ ho ht⟩

/-- In this session there is something to say: 4 headers and 4 requests were sent. -/
example : ((calls debugger dbgStart dbgSession).map fun x => (x.2.out.filter traffic).length) = some 8 := by decide +kernel

example : ∃ steps s answer, Hist debugger dbgStart steps s ∧
    (processRequest debugger header (request "debugInfo" .null)).run s = (.ok answer, s) ∧
      At answer [lit "body", lit "isStarted"] (.bool true) ∧ Running s.out := by
  obtain ⟨steps, s, h, hs, _⟩ := dbgSession_hist
  obtain ⟨answer, b, h₁, h₂, h₃⟩ := C59_report debugger_local debugger_extends h
    (header := header) (m := request "debugInfo" .null) (seq := .int 12)
    ⟨.member (by decide +kernel) .here, .member (by decide +kernel) .here⟩ rfl
  have hr := (traffic_hist debugger_local h).started.1 hs
  exact ⟨steps, s, answer, h, h₁, h₃.2 hr ▸ h₂, hr⟩

/-- The third start of the sample debugger fails. -/
example : ∃ answer, (processRequest debugger header (request "initialize" .null)).run (initial 2 noFiles [] []) =
    (.ok answer, { initial 2 noFiles [] [] with st := 3, out := [.start false] }) ∧
      At answer [lit "success"] (.bool false) := by
  obtain ⟨answer, h, h', _⟩ := C59_start_fails debugger (header := header) (m := request "initialize" .null) (seq := .int 12)
    (.member (by decide +kernel) .here) (.member (by decide +kernel) .here) (fun f hf => by
      simp only [debugger, List.mem_singleton, Prod.mk.injEq] at hf
      exact absurd hf.1 (by decide +kernel)) (s := initial 2 noFiles [] []) (st := 3) rfl (by decide +kernel)
  exact ⟨answer, h, h'⟩

end Examples

/-! ## C60: debugInfo reports the breakpoints last set -/

/-- **C60.** After any history, debugInfo lists each source for which breakpoints were set since the last disconnection,
once and in order, with the breakpoints of the last such request. -/
theorem C60_breakpoints {d : Debugger σ} (hd : Extends d) {st : σ} {files : Str → Option Str} {replies acks : List Str}
    {steps : List Step} {s : State σ} (h : Hist d (initial st files replies acks) steps s)
    {header m seq : Json} (hm : DebugInfo m seq) {i : Info} (hi : d.info s.st = .ok i) :
    ∃ answer l, (processRequest d header m).run s = (.ok answer, s) ∧ ReportsBreakpoints answer l ∧
      l.Pairwise (fun a b => strLt a.1 b.1 = true) ∧ ∀ src bs, (src, bs) ∈ l ↔ LastSet d.J steps src bs := by
  have inv := hist_records hd h
  obtain ⟨l, hl⟩ : ∃ l : List (Str × List Json), s.breakpoints = l.map fun x => (x.1, .arr x.2) := by
    have := inv.arrays
    generalize s.breakpoints = bl at this
    induction bl with
    | nil => exact ⟨[], rfl⟩
    | cons x xs ih =>
      obtain ⟨k, v⟩ := x
      obtain ⟨v', rfl⟩ := this k v List.mem_cons_self
      obtain ⟨l', hl'⟩ := ih fun k v h => this k v (List.mem_cons_of_mem _ h)
      exact ⟨(k, v') :: l', by rw [hl']; rfl⟩
  have hlist : (if s.started then s.breakpoints.map breakpointEntry else []) = s.breakpoints.map breakpointEntry := by
    cases hs : s.started with
    | true => rfl
    | false => rw [inv.idle hs]; rfl
  refine ⟨_, l, run_debugInfo hd hm hi, ⟨_, infoAnswer_breakpoints i seq s, ?_, ?_⟩, ?_, fun src bs => ?_⟩
  · rw [hlist, hl]; simp
  · intro n j x hj hx
    rw [hlist, hl] at hj
    simp only [List.map_map, List.getElem?_map, hx, Option.map_some, Option.some.injEq, Function.comp] at hj
    subst hj
    exact breakpointEntry_at x.1 x.2
  · have := inv.sorted
    rw [hl] at this
    exact List.pairwise_map.1 this
  · rw [← inv.bps, ← mem_iff_lookup inv.sorted, hl, List.mem_map]
    constructor
    · exact fun h => ⟨_, h, rfl⟩
    · rintro ⟨⟨a, b⟩, hm, he⟩
      simp only [Prod.mk.injEq, Json.arr.injEq] at he
      obtain ⟨rfl, rfl⟩ := he
      exact hm

/-! ## C61: debugInfo reports the stopped threads -/

/-- **C61.** After any history, debugInfo lists, once and in order, the threads whose last event since the last
disconnection was `stopped`. -/
theorem C61_threads {d : Debugger σ} (hd : Extends d) {st : σ} {files : Str → Option Str} {replies acks : List Str}
    {steps : List Step} {s : State σ} (h : Hist d (initial st files replies acks) steps s)
    {header m seq : Json} (hm : DebugInfo m seq) {i : Info} (hi : d.info s.st = .ok i) :
    ∃ answer l, (processRequest d header m).run s = (.ok answer, s) ∧ ReportsThreads answer l ∧
      l.Pairwise (· < ·) ∧ ∀ t, t ∈ l ↔ LastStopped steps t :=
  have inv := hist_records hd h
  ⟨_, _, run_debugInfo hd hm hi, infoAnswer_threads i seq s, inv.thrSorted, inv.thr⟩

section Examples
open Sample

/-- After the session, a source and its last breakpoints are reported, and a stopped thread. -/
example : ∃ steps s answer, Hist debugger dbgStart steps s ∧
    (processRequest debugger header (request "debugInfo" .null)).run s = (.ok answer, s) ∧
      LastSet debugger.J steps (lit "b.py") [.obj [(lit "line", .int 7)]] ∧ ¬ LastStopped steps 5 ∧ LastStopped steps 2 := by
  obtain ⟨steps, s, h, _, hb, ht⟩ := dbgSession_hist
  have hm : DebugInfo (request "debugInfo" .null) (.int 12) :=
    ⟨.member (by decide +kernel) .here, .member (by decide +kernel) .here⟩
  obtain ⟨answer, l, h₁, _⟩ := C60_breakpoints debugger_extends h (header := header) hm rfl
  have inv := hist_records debugger_extends h
  refine ⟨steps, s, answer, h, h₁, (inv.bps _ _).1 ?_, fun hc => ?_, (inv.thr 2).1 ?_⟩
  · rw [hb]; decide +kernel
  · have := (inv.thr 5).2 hc
    rw [ht] at this
    simp at this
  · rw [ht]; simp

end Examples

/-! ## C62: disconnect resets the debugger -/

/-- **C62.** After a disconnect request that was answered, the debugger is in the state of a new one, whatever happened
before; only the state of the kernel author's code, the files and what the adapter is going to answer remain. -/
theorem C62_reset (d : Debugger σ) {header m r : Json} {s s' : State σ}
    (hc : At m [lit "command"] (.str (lit "disconnect"))) (h : (processRequest d header m).run s = (.ok r, s')) :
    s' = { initial s'.st s'.files s'.replies s'.acks with out := s'.out } ∧ ∃ l, s'.out = l ++ [.stop] := by
  obtain ⟨h₁, h₂, h₃, h₄⟩ := disconnect_resets hc h
  refine ⟨?_, h₄⟩
  rcases s' with ⟨a, b, c, e, f, g, k, o⟩
  simp only at h₁ h₂ h₃
  subst h₁ h₂ h₃
  rfl

/-- **C62, the report.** After such a request debugInfo reports a debugger that is not started, without breakpoints and
stopped threads. -/
theorem C62_report {d : Debugger σ} (hd : Extends d) {header m r : Json} {s s' : State σ}
    (hc : At m [lit "command"] (.str (lit "disconnect"))) (h : (processRequest d header m).run s = (.ok r, s'))
    {header' m' seq : Json} (hm : DebugInfo m' seq) {i : Info} (hi : d.info s'.st = .ok i) :
    ∃ answer, (processRequest d header' m').run s' = (.ok answer, s') ∧
      At answer [lit "body", lit "isStarted"] (.bool false) ∧ ReportsBreakpoints answer [] ∧ ReportsThreads answer [] := by
  obtain ⟨h₁, h₂, h₃, _⟩ := disconnect_resets hc h
  refine ⟨_, run_debugInfo hd hm hi, h₁ ▸ infoAnswer_started i seq s', ⟨[], ?_, rfl, by simp⟩, ?_⟩
  · have := infoAnswer_breakpoints i seq s'
    rwa [h₁] at this
  · have := infoAnswer_threads i seq s'
    rwa [h₃] at this

/-- **C62, the next start.** A debugger that is not running, in particular after a disconnection, is started by an
initialize request if `start` succeeds; the request is forwarded and the adapter's answer returned. -/
theorem C62_restart (d : Debugger σ) {header m : Json} (hc : At m [lit "command"] (.str (lit "initialize")))
    (hu : ∀ b f, (lit "initialize", b, f) ∉ d.requests) {s : State σ} {st : σ} (hs : s.started = false)
    (hst : d.start s.st = (.ok true, st)) {hb content raw ack : Str} {rs as : List Str} {reply : Json}
    (hh : d.J.dump .strict header = some hb) (hm : d.J.dump .strict m = some content)
    (ha : s.acks = ack :: as) (hr : s.replies = raw :: rs) (hp : d.J.parse raw = some reply) :
    (processRequest d header m).run s = (.ok reply, { s with
      st := st, started := true, replies := rs, acks := as,
      out := s.out ++ [.start true, .header hb, .request (dapFrame content)] }) := by
  have h1 : isText (.str (lit "initialize")) "initialize" = true := by simp [isText]
  have h2 : isText (.str (lit "initialize")) "disconnect" = false := by simp [isText_str, lits_ne₄.2.2.2]
  have h3 : d.requestHandler true (lit "initialize") = none := by
    cases hh : d.requestHandler true (lit "initialize") with
    | none => rfl
    | some f =>
      rcases List.mem_append.1 (requestHandler_mem hh) with hm | hm
      · have hne : lit "initialize" ∉ builtinCommands := by decide +kernel
        refine absurd ?_ hne
        simp only [List.mem_cons, List.not_mem_nil, or_false, Prod.mk.injEq] at hm
        rcases hm with ⟨h, _⟩ | ⟨h, _⟩ | ⟨h, _⟩ | ⟨h, _⟩ | ⟨h, _⟩ | ⟨h, _⟩ <;> rw [h] <;> simp [builtinCommands]
      · exact absurd hm (hu true f)
  rw [run_processRequest, at_command hc, andThen_ok]
  simp only [body, run_bind, initPart, h1, if_true, run_read, andThen_ok, hs, Bool.false_eq_true, if_false, tryStart,
    callStart, run_lift, hst, run_pure, run_ofRes, Json.getStr, no_plain lits_ne₄.2.2.1 (hu false), dispatch,
    whenStarted]
  rw [run_sendHeader (d := d) (hb := hb) (ack := ack) (as := as) hh (by exact ha), andThen_ok, h3]
  simp only [startedRequest]
  rw [run_forward (d := d) (content := content) (raw := raw) (rs := rs) (reply := reply) hm (by exact hr) hp, andThen_ok,
    disconnect_other h2, andThen_ok]
  simp only [List.append_assoc, List.cons_append, List.nil_append]

section Examples
open Sample

/-- A session with breakpoints and a stopped thread ends with a disconnection. -/
example : ∃ s s' r, s.breakpoints ≠ [] ∧ s.threads ≠ [] ∧
    (processRequest debugger header (request "disconnect" .null)).run s = (.ok r, s') ∧
      s' = { initial s'.st s'.files s'.replies s'.acks with out := s'.out } := by
  have h : ((calls debugger dbgStart dbgSession).map fun x => (x.2.breakpoints.length, x.2.threads.length,
      ((processRequest debugger header (request "disconnect" .null)).run x.2).1)) =
      some (2, 1, .ok (.obj [(lit "success", .bool true)])) := by decide +kernel
  obtain ⟨x, _, h₂⟩ := Option.map_eq_some_iff.1 h
  simp only [Prod.mk.injEq] at h₂
  rcases hr : (processRequest debugger header (request "disconnect" .null)).run x.2 with ⟨r, s'⟩
  rw [hr] at h₂
  obtain ⟨h₃, h₄, rfl⟩ := h₂
  refine ⟨x.2, s', _, ?_, ?_, hr, (C62_reset debugger (.member (by decide +kernel) .here) hr).1⟩
  · intro h; rw [h] at h₃; cases h₃
  · intro h; rw [h] at h₄; cases h₄

/-- Disconnecting (a debugger that was started once) and the report after it. -/
example : ∃ s' r answer, (processRequest debugger header (request "disconnect" .null)).run
      { initial 1 noFiles [okAnswer] [[]] with started := true, threads := [4] } = (.ok r, s') ∧
    (processRequest debugger header (request "debugInfo" .null)).run s' = (.ok answer, s') ∧
      At answer [lit "body", lit "isStarted"] (.bool false) := by
  have h : ((processRequest debugger header (request "disconnect" .null)).run
      { initial 1 noFiles [okAnswer] [[]] with started := true, threads := [4] }).1 =
        .ok (.obj [(lit "success", .bool true)]) := by decide +kernel
  rcases hr : (processRequest debugger header (request "disconnect" .null)).run
      { initial 1 noFiles [okAnswer] [[]] with started := true, threads := [4] } with ⟨r, s'⟩
  rw [hr] at h
  subst h
  obtain ⟨answer, h₁, h₂, _⟩ := C62_report debugger_extends (.member (by decide +kernel) .here) hr (header' := header)
    (m' := request "debugInfo" .null) (seq := .int 12)
    ⟨.member (by decide +kernel) .here, .member (by decide +kernel) .here⟩ rfl
  exact ⟨s', _, answer, rfl, h₁, h₂⟩

/-- The second start of the sample debugger succeeds. -/
example : (processRequest debugger header (request "initialize" .null)).run (initial 1 noFiles [okAnswer] [[]]) =
    (.ok (.obj [(lit "success", .bool true)]), { initial 1 noFiles [] [] with
      st := 2, started := true, out := [.start true, .header (printJson header),
        .request (dapFrame (printJson (request "initialize" .null)))] }) :=
  C62_restart debugger (.member (by decide +kernel) .here) (fun b f hf => by
      simp only [debugger, List.mem_singleton, Prod.mk.injEq] at hf
      exact absurd hf.1 (by decide +kernel)) rfl (by decide +kernel) (by decide +kernel) (by decide +kernel) rfl rfl
    (by decide +kernel)

/-- **C62 does not hold for a disconnection that fails.** If `stop` throws, or the adapter's answer to the request is not
JSON, the request ends with an exception and the debugger is still started, with all its records. -/
theorem C62_failure_witness :
    (((processRequest stubborn header (request "disconnect" .null)).run
      { initial 1 noFiles [okAnswer] [[]] with started := true, threads := [4] }).1 = .exc (.runtime "busy") ∧
     ((processRequest stubborn header (request "disconnect" .null)).run
      { initial 1 noFiles [okAnswer] [[]] with started := true, threads := [4] }).2.started = true ∧
     ((processRequest stubborn header (request "disconnect" .null)).run
      { initial 1 noFiles [okAnswer] [[]] with started := true, threads := [4] }).2.threads = [4]) ∧
    (((processRequest debugger header (request "disconnect" .null)).run
      { initial 1 noFiles [lit "stop"] [[]] with started := true, threads := [4] }).1 = .exc .parseError ∧
     ((processRequest debugger header (request "disconnect" .null)).run
      { initial 1 noFiles [lit "stop"] [[]] with started := true, threads := [4] }).2.started = true) := by
  decide +kernel

end Examples

end Xeus.Dbg
