import Verif.Dap.RouteRuns
import Verif.Dap.EventProps

/-!
# Routing of the messages of the debug adapter (C56)
-/

namespace Xeus

open Spec K

variable {σ : Type} {cl : Client σ}

/-- **C56**.  Processing the queue: every message is handled exactly once, in order; events go to the event handler,
everything else goes verbatim to the requester, an answer to `disconnect` requests the stop, and the queue is empty
afterwards.  For event handlers that do not wait for messages themselves. -/
theorem C56_process (hnw : ∀ j, NoWait (cl.onEvent j)) {s s' : Dap σ} (h : Process cl s (.ok ()) s') :
    s'.queue = [] ∧ routes s'.out = routes s.out ++ s.queue.filterMap (routeOf cl.env.J) ∧
    s'.requestStop = (s.requestStop || s.queue.any (isDisconnectText cl.env.J)) ∧
    s'.tcpIn = s.tcpIn := by
  obtain ⟨a1, _, a3, a4, _, a6, _⟩ := process_still hnw h rfl
  exact ⟨a1, a3, a4, a6⟩

/-- **C56**.  The queue is processed completely if the handler does not fail and at most one message is an answer, and
that only if one is expected. -/
theorem C56_completes (hnw : ∀ j, NoWait (cl.onEvent j)) (hok : ∀ j s, ((dapExec cl (cl.onEvent j)).run s).1 = .ok ())
    {s : Dap σ} (hobj : ∀ raw ∈ s.queue, ObjectText cl.env.J raw)
    (hdue : (s.queue.filter fun raw => !isEventText cl.env.J raw).length ≤ if s.replyDue then 1 else 0) :
    ∃ s', Process cl s (.ok ()) s' := process_runs hnw hok hobj hdue

/-- **C56**.  Whatever the event handler does, processing the queue ends, in exactly one way. -/
theorem C56_ends (cl : Client σ) (s : Dap σ) : ∃ r s', Process cl s r s' ∧ ∀ r₁ s₁, Process cl s r₁ s₁ → r₁ = r ∧ s₁ = s' := by
  obtain ⟨r, s', h⟩ := process_exists (cl := cl) s
  exact ⟨r, s', h, fun _ _ h₁ => process_det h₁ h⟩

/-- **C56**.  Whatever the event handler does and however processing ends, what is passed on is passed on by type:
events to the handler, everything else verbatim to the requester. -/
theorem C56_by_type {s s' : Dap σ} {r : Res Unit} (h : Process cl s r s') :
    ∃ passed, s'.routed = s.routed ++ passed ∧ routes s'.out = routes s.out ++ passed.filterMap (routeOf cl.env.J) :=
  keeps_process (routedBy_pre _) (fun raw => routedBy_processOne raw) h

/-- **C56**.  The whole life of a client whose handler does not wait and which does not perform the parallel
initialization: when it is back at the top of its loop, the messages received are the first `n` sent by the adapter,
each has been passed on exactly once, in order and by type, and the client stops if and only if one of them answers a
`disconnect` request. -/
theorem C56_life (hnw : ∀ j, NoWait (cl.onEvent j)) (hp : cl.parallel = false) {ms : List DapMsg}
    (hms : ∀ m ∈ ms, m.Ok) (st : σ) {tcpIn : List Str} (htcp : tcpIn.flatten = wireOfMsgs ms) (ctlIn hdrIn : List Str)
    {s : Dap σ} (h : DapReach cl (Dap.initial st tcpIn ctlIn hdrIn) s) :
    ∃ n, routes s.out = .reply (lit "ACK") :: (bodies (ms.take n)).filterMap (routeOf cl.env.J) ∧
      s.tcpIn.flatten = wireOfMsgs (ms.drop n) ∧ s.queue = [] ∧
      s.requestStop = (bodies (ms.take n)).any (isDisconnectText cl.env.J) := by
  obtain ⟨n, h1, h2⟩ := link_reach (ms := ms) hms (s₀ := Dap.initial st tcpIn ctlIn hdrIn) ⟨0, rfl, htcp⟩ h
  obtain ⟨_, p2, _, p4, p5⟩ := plain_reach hnw hp (s₀ := Dap.initial st tcpIn ctlIn hdrIn) ⟨rfl, rfl, rfl, rfl⟩ h
  exact ⟨n, by rw [← h1]; exact p4, h2, p2, by rw [← h1]; exact p5⟩

/-- **C56**.  The whole life of any client whose handler does not wait for the very event it is handling and gives up
when a wait fails: the events handled are among the messages sent by the adapter, in their order (`passed` is a
subsequence); every message received has been passed on, returned by a wait, or dropped by a wait, exactly once. -/
theorem C56_order (hord : ∀ j, Orderly j (cl.onEvent j)) {ms : List DapMsg} (hms : ∀ m ∈ ms, m.Ok) (st : σ)
    {tcpIn : List Str} (htcp : tcpIn.flatten = wireOfMsgs ms) (ctlIn hdrIn : List Str) {s : Dap σ}
    (h : DapReach cl (Dap.initial st tcpIn ctlIn hdrIn) s) :
    ∃ n passed, handled s.out = eventTexts cl.env.J passed ∧ passed.Sublist (bodies (ms.take n)) ∧
      (passed ++ s.waited ++ s.lost).Perm (bodies (ms.take n)) ∧ s.queue = [] ∧ s.stopped = [] ∧
      s.tcpIn.flatten = wireOfMsgs (ms.drop n) := by
  obtain ⟨n, h1, h2⟩ := link_reach (ms := ms) hms (s₀ := Dap.initial st tcpIn ctlIn hdrIn) ⟨0, rfl, htcp⟩ h
  have hev := events_reach (cl := cl) (s₀ := Dap.initial st tcpIn ctlIn hdrIn) rfl h
  obtain ⟨o1, o2, o3⟩ := ord_reach hord (s₀ := Dap.initial st tcpIn ctlIn hdrIn)
    ⟨rfl, List.Sublist.refl _, List.Perm.refl _⟩ h
  have hq := reach_empty (cl := cl) (s₀ := Dap.initial st tcpIn ctlIn hdrIn) rfl h
  rw [hq, List.append_nil] at o2 o3
  exact ⟨n, s.routed, hev, h1 ▸ o2, h1 ▸ o3, hq, o1, h2⟩

/-- **C56**.  An answer that nobody has asked for ends the client: `m_controller` refuses to send (`EFSM`), the
exception leaves the loop, and the message stays at the front of the queue. -/
theorem C56_unsolicited {s : Dap σ} {raw : Str} {q : List Str} (hq : s.queue = raw :: q)
    (hobj : ObjectText cl.env.J raw) (hev : isEventText cl.env.J raw = false) (hdue : s.replyDue = false) :
    ∃ s', Process cl s (.exc .zmq) s' ∧ s'.queue = s.queue ∧ s'.out = s.out := by
  obtain ⟨kvs, hk⟩ := hobj
  have hm : memberIs (.obj kvs) "type" "event" = false := by simpa [isEventText, hk] using hev
  have := congrFun (handleMessage_object (cl := cl) hk) s
  rw [hm] at this
  simp only [Bool.false_eq_true, if_false, run_passOn, hdue] at this
  have hrun : (processOne cl raw).run s = (.exc .zmq, { s with
      requestStop := s.requestStop || isText (((Json.obj kvs).find? (lit "command")).getD Json.null) "disconnect"
      replyDue := false }) := by
    rw [run_processOne, this, andThen_exc]
  exact ⟨_, .stop hq hrun (by simp), rfl, rfl⟩

/-! ## A handler that waits for its own event -/

/-- Waits for an event when handling one: the event being handled is still at the front of the queue, so that the wait
returns it. -/
def greedyClient : Client Nat :=
  { sampleClient with onEvent := fun _ => .call (.wait fun j => .ok (memberIs j "type" "event")) fun _ => .ret () }

def responseText : Str := lit "{\"command\":\"x\",\"type\":\"response\"}"

def greedyStart : Dap Nat := sampleDap [eventText, responseText] [] true
def stoppedJson : Json := .obj [(lit "event", .str (lit "stopped")), (lit "type", .str (lit "event"))]
def greedyEnd : Dap Nat :=
  { greedyStart with queue := [], routed := [eventText], waited := [eventText], out := [.event stoppedJson] }

/-- **C56**.  A handler that waits for an event removes the event being handled; `pop_front` then removes the next
message, here an answer, which is never passed on. -/
theorem C56_greedy_loses_witness :
    Process greedyClient greedyStart (.ok ()) greedyEnd ∧ greedyStart.queue = [eventText, responseText] ∧
      greedyEnd.queue = [] ∧ routes greedyEnd.out = [.event stoppedJson] ∧ greedyEnd.waited = [eventText] := by
  have h1 : (processOne greedyClient eventText).run greedyStart = (.ok (), greedyEnd) := by decide +kernel
  exact ⟨.more (q := [responseText]) rfl h1 (.empty rfl), rfl, rfl, by decide +kernel, rfl⟩

def greedyAlone : Dap Nat := sampleDap [eventText] [] true

/-- **C56**.  With nothing behind it in the queue the same handler leads to `pop_front` on an empty queue. -/
theorem C56_greedy_undefined_witness :
    ∃ s', Process greedyClient greedyAlone (.ub "pop_front on an empty queue") s' := by
  have h1 : ((processOne greedyClient eventText).run greedyAlone).1 = .ub "pop_front on an empty queue" := by
    decide +kernel
  rcases hr : (processOne greedyClient eventText).run greedyAlone with ⟨r, s'⟩
  rw [hr] at h1
  have h1 : r = .ub "pop_front on an empty queue" := h1
  subst h1
  exact ⟨s', .stop (q := []) rfl hr (by simp)⟩

/-! ## Examples -/

example (j : Json) : NoWait (sampleClient.onEvent j) := .forward fun _ => .ret

def disconnectText : Str := lit "{\"command\":\"disconnect\",\"type\":\"response\"}"

/-- Three events and the answer to `disconnect` between them; the last event also has a `command`. -/
def sampleQueue : List Str :=
  [eventText, disconnectText, lit "{\"event\":\"exited\",\"type\":\"event\"}",
   lit "{\"command\":\"disconnect\",\"type\":\"event\"}"]

theorem sampleQueue_objects : ∀ raw ∈ sampleQueue, ObjectText sampleClient.env.J raw := by
  have h : ∀ raw ∈ sampleQueue, (match sampleClient.env.J.parse raw with
    | some (.obj _) => true
    | _ => false) = true := by decide +kernel
  intro raw hr
  have := h raw hr
  unfold ObjectText
  split at this
  · next kvs hk => exact ⟨kvs, hk⟩
  · cases this

/-- Neither handler nor forwarding can fail in the sample client: the published parts can always be written. -/
def quietClient : Client Nat := { sampleClient with onEvent := fun _ => .get fun n => .set (n + 1) (.ret ()) }

theorem quietClient_ok (j : Json) (s : Dap Nat) : ((dapExec quietClient (quietClient.onEvent j)).run s).1 = .ok () := by
  simp [quietClient, dapExec]

def quietStart : Dap Nat := sampleDap sampleQueue [] true

example : ∃ s', Process quietClient quietStart (.ok ()) s' ∧ s'.queue = [] ∧ s'.requestStop = true ∧
    routes s'.out = sampleQueue.filterMap (routeOf quietClient.env.J) := by
  have e1 : quietStart.queue = sampleQueue := rfl
  have e2 : routes quietStart.out = [] := rfl
  have e3 : (sampleQueue.filter fun raw => !isEventText quietClient.env.J raw).length ≤ 1 := by decide +kernel
  have e4 : sampleQueue.any (isDisconnectText quietClient.env.J) = true := by decide +kernel
  obtain ⟨s', h⟩ := C56_completes (cl := quietClient) (s := quietStart)
    (fun _ => .get fun _ => .set .ret) quietClient_ok (by rw [e1]; exact sampleQueue_objects) (by rw [e1]; exact e3)
  obtain ⟨h1, h2, h3, _⟩ := C56_process (cl := quietClient) (fun _ => .get fun _ => .set .ret) h
  rw [e1] at h2 h3
  exact ⟨s', h, h1, by rw [h3, e4, Bool.or_true], by rw [h2, e2, List.nil_append]⟩

example : (sampleQueue.filterMap (routeOf sampleEnv.J)).map (fun
    | .reply b => some b
    | _ => none) = [none, some disconnectText, none, none] := by decide +kernel

example : ∃ s', Process sampleClient (sampleDap [responseText] [] false) (.exc .zmq) s' ∧ s'.queue = [responseText] ∧
    s'.out = [] := by
  refine C56_unsolicited (cl := sampleClient) (s := sampleDap [responseText] [] false) (q := []) rfl ?_ (by decide +kernel)
    rfl
  exact ⟨[(lit "command", .str (lit "x")), (lit "type", .str (lit "response"))], by decide +kernel⟩

example : ∃ passed, eventDone.routed = eventPolled.routed ++ passed := by
  have hq : eventPolled.queue = [eventText] := by decide +kernel
  have h2 : (processOne sampleClient eventText).run eventPolled = (.ok (), eventDone) := run_ok_of (by decide +kernel)
  obtain ⟨p, h, _⟩ := C56_by_type (.more hq h2 (.empty (by decide +kernel)) : Process sampleClient eventPolled (.ok ()) eventDone)
  exact ⟨p, h⟩

/-- A handler that asks the adapter something and waits for the answer. -/
def askingClient : Client Nat :=
  { sampleClient with
    parallel := false
    onEvent := fun j => .call (.request (.obj [])) fun _ =>
      .call (.wait fun m => .ok (memberIs m "command" "x")) fun
        | .ok _ => .call (.forward j) fun _ => .ret ()
        | .error e => .throw e }

/-- It waits for messages other than the event it is handling, provided that events do not have this `command`. -/
example (j : Json) (h : memberIs j "command" "x" = false) : Orderly j (askingClient.onEvent j) :=
  .request fun _ => .wait (by simp [h]) (fun _ => .forward fun _ => .ret) fun _ => rfl

/-- A client that is orderly on all events: when stopped, it waits for a response. -/
def orderlyClient : Client Nat :=
  { sampleClient with
    parallel := false
    onEvent := fun j =>
      if memberIs j "type" "event" && memberIs j "event" "stopped" then
        .call (.wait fun m => .ok (memberIs m "type" "response")) fun
          | .ok _ => .ret ()
          | .error e => .throw e
      else .ret () }

theorem orderlyClient_orderly (j : Json) : Orderly j (orderlyClient.onEvent j) := by
  show Orderly j (if memberIs j "type" "event" && memberIs j "event" "stopped" then _ else _)
  split
  · next h =>
    refine .wait ?_ (fun _ => .ret) fun _ => rfl
    have h' : j.find? (lit "type") = some (.str (lit "event")) := by
      simp only [Bool.and_eq_true] at h
      simpa [memberIs] using h.1
    have hne : (lit "event" : Str) ≠ lit "response" := by decide
    simp [memberIs, h', hne]
  · exact .ret

def exitedText : Str := lit "{\"event\":\"exited\",\"type\":\"event\"}"

/-- The adapter sends two events, an answer, and another event, in two chunks. -/
def orderlyMsgs : List DapMsg := [plainMsg exitedText, plainMsg eventText, plainMsg responseText, plainMsg exitedText]

def orderlyChunks : List Str :=
  [dapFrame exitedText ++ dapFrame eventText, dapFrame responseText ++ dapFrame exitedText]

theorem orderlyMsgs_ok : ∀ m ∈ orderlyMsgs, m.Ok := by
  intro m hm
  simp only [orderlyMsgs, List.mem_cons, List.not_mem_nil, or_false] at hm
  rcases hm with rfl | rfl | rfl | rfl <;> exact plainMsg_ok (by decide +kernel)

/-- The states of the run. -/
def orderlyStart : Dap Nat := Dap.initial 0 orderlyChunks [lit "REQ"] []
def orderlyTop : Dap Nat := { orderlyStart with ctlIn := [], out := [.reply (lit "ACK")] }
def orderlyPolled : Dap Nat :=
  { orderlyTop with queue := [exitedText, eventText], tcpIn := [dapFrame responseText ++ dapFrame exitedText],
                    rcvd := [exitedText, eventText] }
def exitedJson : Json := .obj [(lit "event", .str (lit "exited")), (lit "type", .str (lit "event"))]
def orderly1 : Dap Nat :=
  { orderlyPolled with queue := [eventText], routed := [exitedText], out := [.reply (lit "ACK"), .event exitedJson] }
def orderly2 : Dap Nat :=
  { orderly1 with
    queue := [exitedText], tcpIn := [], rcvd := [exitedText, eventText, responseText, exitedText], waited := [responseText]
    routed := [exitedText, eventText], out := [.reply (lit "ACK"), .event exitedJson, .event stoppedJson] }
def orderly3 : Dap Nat :=
  { orderly2 with
    queue := [], routed := [exitedText, eventText, exitedText]
    out := [.reply (lit "ACK"), .event exitedJson, .event stoppedJson, .event exitedJson] }

theorem orderly_reach : DapReach orderlyClient orderlyStart orderly3 := by
  have h1 : DapReach orderlyClient orderlyStart orderlyTop := .start (by decide +kernel)
  have r0 : (afterPoll orderlyClient false false true).run orderlyTop = (.ok (), orderlyPolled) := by decide +kernel
  have r1 : (processOne orderlyClient exitedText).run orderlyPolled = (.ok (), orderly1) := by decide +kernel
  have r2 : (processOne orderlyClient eventText).run orderly1 = (.ok (), orderly2) := by decide +kernel
  have r3 : (processOne orderlyClient exitedText).run orderly2 = (.ok (), orderly3) := by decide +kernel
  have hp : Process orderlyClient orderlyPolled (.ok ()) orderly3 :=
    .more (q := [eventText]) rfl r1 (.more (q := []) rfl r2 (.more (q := []) rfl r3 (.empty rfl)))
  have h4 : PollOk orderlyTop false false true :=
    ⟨rfl, fun h => (by cases h), fun h => (by cases h), fun _ => by decide +kernel⟩
  exact .iter h1 (.done rfl h4 r0 hp)

/-- The second event waits for the answer; the third event, read meanwhile, is handled in its turn. -/
example : orderly3.waited = [responseText] ∧
    ∃ n passed, handled orderly3.out = eventTexts sampleEnv.J passed ∧ passed.Sublist (bodies (orderlyMsgs.take n)) ∧
      (passed ++ orderly3.waited ++ orderly3.lost).Perm (bodies (orderlyMsgs.take n)) := by
  refine ⟨by decide +kernel, ?_⟩
  obtain ⟨n, passed, h1, h2, h3, _⟩ := C56_order (cl := orderlyClient) orderlyClient_orderly orderlyMsgs_ok 0
    (tcpIn := orderlyChunks) (by decide +kernel) [lit "REQ"] [] orderly_reach
  exact ⟨n, passed, h1, h2, h3⟩

/-- A client without parallel initialization that counts the events. -/
def plainClient : Client Nat := { quietClient with parallel := false }

def plainMsgs : List DapMsg := [plainMsg eventText, plainMsg disconnectText]
def plainStart : Dap Nat :=
  Dap.initial 0 [dapFrame eventText, dapFrame disconnectText] [lit "REQ", lit "disconnect, please"] []
def plainTop : Dap Nat := { plainStart with ctlIn := [lit "disconnect, please"], out := [.reply (lit "ACK")] }
def plainPolled : Dap Nat :=
  { plainTop with
    ctlIn := [], replyDue := true, out := [.reply (lit "ACK"), .tcp (lit "disconnect, please")]
    queue := [eventText], tcpIn := [dapFrame disconnectText], rcvd := [eventText] }
def plain1 : Dap Nat :=
  { plainPolled with
    st := 1, queue := [], routed := [eventText]
    out := [.reply (lit "ACK"), .tcp (lit "disconnect, please"), .event stoppedJson] }
def plainPolled2 : Dap Nat :=
  { plain1 with queue := [disconnectText], tcpIn := [], rcvd := [eventText, disconnectText] }
def plain2 : Dap Nat :=
  { plainPolled2 with
    queue := [], replyDue := false, requestStop := true, routed := [eventText, disconnectText]
    out := [.reply (lit "ACK"), .tcp (lit "disconnect, please"), .event stoppedJson, .reply disconnectText] }

theorem plain_reach2 : DapReach plainClient plainStart plain2 := by
  have h1 : DapReach plainClient plainStart plainTop := .start (by decide +kernel)
  have r0 : (afterPoll plainClient false true true).run plainTop = (.ok (), plainPolled) := by decide +kernel
  have r1 : (processOne plainClient eventText).run plainPolled = (.ok (), plain1) := by decide +kernel
  have p1 : PollOk plainTop false true true :=
    ⟨rfl, fun h => (by cases h), fun _ => by decide +kernel, fun _ => by decide +kernel⟩
  have r2 : (afterPoll plainClient false false true).run plain1 = (.ok (), plainPolled2) := by decide +kernel
  have r3 : (processOne plainClient disconnectText).run plainPolled2 = (.ok (), plain2) := by decide +kernel
  have p2 : PollOk plain1 false false true :=
    ⟨rfl, fun h => (by cases h), fun h => (by cases h), fun _ => by decide +kernel⟩
  exact .iter (.iter h1 (.done rfl p1 r0 (.more (q := []) rfl r1 (.empty rfl))))
    (.done rfl p2 r2 (.more (q := []) rfl r3 (.empty rfl)))

/-- The event is handled, the answer is passed on, and the client stops. -/
example : plain2.requestStop = true ∧ ∃ n,
    routes plain2.out = .reply (lit "ACK") :: (bodies (plainMsgs.take n)).filterMap (routeOf sampleEnv.J) := by
  refine ⟨by decide +kernel, ?_⟩
  obtain ⟨n, h, _⟩ := C56_life (cl := plainClient) (ms := plainMsgs) (fun _ => .get fun _ => .set .ret) rfl
    (by
      intro m hm
      simp only [plainMsgs, List.mem_cons, List.not_mem_nil, or_false] at hm
      rcases hm with rfl | rfl <;> exact plainMsg_ok (by decide +kernel)) 0
    (tcpIn := [dapFrame eventText, dapFrame disconnectText]) (by decide +kernel) _ _ plain_reach2
  exact ⟨n, h⟩

end Xeus
