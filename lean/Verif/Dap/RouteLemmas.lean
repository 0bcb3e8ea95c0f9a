import Verif.Dap.EventLemmas

/-! # Routing of the messages of the adapter: lemmas (no property statements here) -/

namespace Xeus

open Spec K

variable {σ : Type} {cl : Client σ}

/-! ## Kept by every event handler -/

/-- Nothing that concerns routing has changed. -/
structure Quiet (s s' : Dap σ) : Prop where
  out : routes s'.out = routes s.out
  handled : handled s'.out = handled s.out
  routed : s'.routed = s.routed
  requestStop : s'.requestStop = s.requestStop
  replyDue : s'.replyDue = s.replyDue
  waitAttach : s'.waitAttach = s.waitAttach

theorem quiet_pre : Pre (Quiet (σ := σ)) :=
  ⟨fun _ => ⟨rfl, rfl, rfl, rfl, rfl, rfl⟩, fun h₁ h₂ => ⟨h₂.out.trans h₁.out, h₂.handled.trans h₁.handled,
    h₂.routed.trans h₁.routed, h₂.requestStop.trans h₁.requestStop, h₂.replyDue.trans h₁.replyDue,
    h₂.waitAttach.trans h₁.waitAttach⟩⟩

/-- `Quiet`, and the queues, inputs and records are as before. -/
structure Still (s s' : Dap σ) : Prop where
  quiet : Quiet s s'
  queue : s'.queue = s.queue
  stopped : s'.stopped = s.stopped
  tcpIn : s'.tcpIn = s.tcpIn
  rcvd : s'.rcvd = s.rcvd
  waited : s'.waited = s.waited
  lost : s'.lost = s.lost

theorem still_pre : Pre (Still (σ := σ)) :=
  ⟨fun s => ⟨quiet_pre.refl s, rfl, rfl, rfl, rfl, rfl, rfl⟩, fun h₁ h₂ => ⟨quiet_pre.trans h₁.quiet h₂.quiet,
    h₂.queue.trans h₁.queue, h₂.stopped.trans h₁.stopped, h₂.tcpIn.trans h₁.tcpIn, h₂.rcvd.trans h₁.rcvd,
    h₂.waited.trans h₁.waited, h₂.lost.trans h₁.lost⟩⟩

theorem routes_snoc (out : List DapEv) (e : DapEv) : routes (out ++ [e]) = routes out ++ routes [e] := by
  simp [routes]

theorem handled_snoc (out : List DapEv) (e : DapEv) : handled (out ++ [e]) = handled out ++ handled [e] := by
  simp [handled]

theorem still_forward (j : Json) : Keeps Still (forwardEvent cl j) := by
  intro s
  rcases forwardEvent_cases (cl := cl) j s with h1 | h1 | ⟨p, w, h1, h2, h3⟩
  · rw [h1]
    exact ⟨⟨by simp [afterCallback, routes], by simp [afterCallback, handled], rfl, rfl, rfl, rfl⟩, rfl, rfl, rfl, rfl, rfl, rfl⟩
  · rw [h1]
    exact ⟨⟨by simp [afterHeader, afterCallback, routes], by simp [afterHeader, afterCallback, handled], rfl, rfl, rfl, rfl⟩,
      rfl, rfl, rfl, rfl, rfl, rfl⟩
  · rw [h3]
    exact ⟨⟨by simp [routes], by simp [handled], rfl, rfl, rfl, rfl⟩, rfl, rfl, rfl, rfl, rfl, rfl⟩

theorem still_tcp (b : Str) : Keeps Still (dapEmit (σ := σ) (.tcp b)) :=
  Keeps.modify fun _ => ⟨⟨by simp [routes], by simp [handled], rfl, rfl, rfl, rfl⟩, rfl, rfl, rfl, rfl, rfl, rfl⟩

theorem still_request (j : Json) : Keeps Still (sendDapRequest cl j) :=
  Keeps.bind still_pre (Keeps.ofRes still_pre _) fun _ => still_tcp _

theorem still_set (s : Dap σ) (st : σ) : Still s { s with st := st } :=
  ⟨⟨rfl, rfl, rfl, rfl, rfl, rfl⟩, rfl, rfl, rfl, rfl, rfl, rfl⟩

theorem quiet_wait (cond : Json → Res Bool) : Keeps Quiet (waitForMessage cl cond) := by
  intro s
  have h := wait_same (cl := cl) cond s
  exact ⟨by rw [h.out], by rw [h.out], h.routed, h.requestStop, h.replyDue, h.waitAttach⟩

theorem quiet_exec {α : Type} (p : Prog σ DapOp α) : Keeps Quiet (dapExec cl p) := by
  refine keeps_dapExec quiet_pre (fun s st => (still_set s st).quiet) ?_ p
  intro o
  cases o with
  | forward j => exact Keeps.bind quiet_pre (fun s => (still_forward j s).quiet) fun _ => Keeps.pure quiet_pre _
  | request j => exact Keeps.bind quiet_pre (fun s => (still_request j s).quiet) fun _ => Keeps.pure quiet_pre _
  | wait cond => exact Keeps.bind quiet_pre (quiet_wait cond) fun _ => Keeps.pure quiet_pre _
  | parentHeader => exact Keeps.read quiet_pre _

theorem still_exec {α : Type} {p : Prog σ DapOp α} (h : NoWait p) : Keeps Still (dapExec cl p) := by
  induction h with
  | ret => exact Keeps.pure still_pre _
  | throw => exact Keeps.throw still_pre _
  | ub => exact Keeps.ofRes still_pre _
  | hang => exact Keeps.ofRes still_pre _
  | get _ ih => exact Keeps.bind still_pre (Keeps.read still_pre _) fun s => ih s
  | set _ ih => exact Keeps.bind still_pre (Keeps.modify fun s => still_set s _) fun _ => ih
  | forward _ ih =>
    exact Keeps.bind still_pre (Keeps.bind still_pre (still_forward _) fun _ => Keeps.pure still_pre _).attempt fun r => ih r
  | request _ ih =>
    exact Keeps.bind still_pre (Keeps.bind still_pre (still_request _) fun _ => Keeps.pure still_pre _).attempt fun r => ih r
  | parent _ ih => exact Keeps.bind still_pre (Keeps.read still_pre _).attempt fun r => ih r

/-! ## Messages -/

theorem idx_obj (kvs : List (Str × Json)) (k : Str) :
    (Json.obj kvs).idx k = .ok (((Json.obj kvs).find? k).getD .null) := by
  simp only [Json.idx, Json.find?]
  cases Json.lookup k kvs <;> rfl

theorem isText_getD (o : Option Json) (v : String) : isText (o.getD .null) v = decide (o = some (.str (lit v))) := by
  cases o with
  | none => simp [isText]
  | some x => simp [isText]

/-- The two ways of handling a message that is a JSON object. -/
theorem handleMessage_object {raw : Str} {kvs : List (Str × Json)} (h : cl.env.J.parse raw = some (.obj kvs)) :
    (handleMessage cl raw : K (Dap σ) Unit).run = if memberIs (.obj kvs) "type" "event" then
        (passEvent cl raw (.obj kvs)).run
      else fun s => (passOn raw (((Json.obj kvs).find? (lit "command")).getD .null)).run s := by
  funext s
  simp only [handleMessage, run_bind, run_ofRes, Codec.parseZmq, h, andThen_ok, idx_obj, isText_getD, memberIs]
  by_cases hc : (Json.obj kvs).find? (lit "type") = some (.str (lit "event"))
  · simp [hc]
  · simp [hc]

theorem run_passEvent (raw : Str) (j : Json) (s : Dap σ) :
    (passEvent cl raw j).run s =
      (dapExec cl (cl.onEvent j)).run { s with routed := s.routed ++ [raw], out := s.out ++ [.event j] } := by
  simp only [passEvent, run_bind, run_modify, andThen_ok]

theorem run_passOn (raw : Str) (c : Json) (s : Dap σ) :
    (passOn raw c).run s = if s.replyDue then
        (.ok (), { s with requestStop := s.requestStop || isText c "disconnect", replyDue := false,
                          out := s.out ++ [.reply raw], routed := s.routed ++ [raw] })
      else (.exc .zmq, { s with requestStop := s.requestStop || isText c "disconnect" }) := by
  simp only [passOn, controllerSend, run_bind, run_modify, andThen_ok, run_lift]
  cases h : s.replyDue <;> simp

/-- What handling one message does: the ways to end. -/
theorem handleMessage_cases (raw : Str) (s : Dap σ) :
    (((handleMessage cl raw).run s).1 ≠ .ok () ∧ Still s ((handleMessage cl raw).run s).2) ∨
    (∃ j, cl.env.J.parse raw = some j ∧ memberIs j "type" "event" = true ∧
      (handleMessage cl raw).run s =
        (dapExec cl (cl.onEvent j)).run { s with routed := s.routed ++ [raw], out := s.out ++ [.event j] }) ∨
    (∃ j, cl.env.J.parse raw = some j ∧ memberIs j "type" "event" = false ∧ s.replyDue = true ∧
      (handleMessage cl raw).run s =
        (.ok (), { s with requestStop := s.requestStop || memberIs j "command" "disconnect", replyDue := false,
                          out := s.out ++ [.reply raw], routed := s.routed ++ [raw] })) ∨
    (∃ j, cl.env.J.parse raw = some j ∧ memberIs j "type" "event" = false ∧ s.replyDue = false ∧
      (handleMessage cl raw).run s =
        (.exc .zmq, { s with requestStop := s.requestStop || memberIs j "command" "disconnect" })) := by
  cases hp : cl.env.J.parse raw with
  | none =>
    left
    simp only [handleMessage, run_bind, run_ofRes, Codec.parseZmq, hp, andThen_exc]
    exact ⟨by simp, still_pre.refl s⟩
  | some j =>
    have hobj : ∀ kvs, j = .obj kvs → (∃ j', some j = some j' ∧ memberIs j' "type" "event" = true ∧
          (handleMessage cl raw).run s =
            (dapExec cl (cl.onEvent j')).run { s with routed := s.routed ++ [raw], out := s.out ++ [.event j'] }) ∨
        (∃ j', some j = some j' ∧ memberIs j' "type" "event" = false ∧ s.replyDue = true ∧
          (handleMessage cl raw).run s =
            (.ok (), { s with requestStop := s.requestStop || memberIs j' "command" "disconnect", replyDue := false,
                              out := s.out ++ [.reply raw], routed := s.routed ++ [raw] })) ∨
        (∃ j', some j = some j' ∧ memberIs j' "type" "event" = false ∧ s.replyDue = false ∧
          (handleMessage cl raw).run s =
            (.exc .zmq, { s with requestStop := s.requestStop || memberIs j' "command" "disconnect" })) := by
      intro kvs hk
      subst hk
      have := congrFun (handleMessage_object (cl := cl) hp) s
      cases hm : memberIs (.obj kvs) "type" "event" with
      | true => exact .inl ⟨_, rfl, hm, by rw [this, hm, if_pos rfl, run_passEvent]⟩
      | false =>
        rw [hm] at this
        simp only [Bool.false_eq_true, if_false, run_passOn, isText_getD] at this
        cases hd : s.replyDue with
        | true => exact .inr (.inl ⟨_, rfl, hm, rfl, by rw [this, hd]; rfl⟩)
        | false => exact .inr (.inr ⟨_, rfl, hm, rfl, by rw [this, hd]; rfl⟩)
    cases j with
    | obj kvs => exact .inr (hobj kvs rfl)
    | null =>
      right; right
      have hrun : (handleMessage cl raw).run s = (passOn raw .null).run s := by
        simp [handleMessage, run_bind, run_ofRes, Codec.parseZmq, hp, Json.idx, isText]
      rw [run_passOn] at hrun
      cases hd : s.replyDue with
      | true => exact .inl ⟨_, rfl, rfl, rfl, by rw [hrun, hd]; rfl⟩
      | false => exact .inr ⟨_, rfl, rfl, rfl, by rw [hrun, hd]; rfl⟩
    | bool b =>
      left
      simp only [handleMessage, run_bind, run_ofRes, Codec.parseZmq, hp, andThen_ok, Json.idx, andThen_exc]
      exact ⟨by simp, still_pre.refl s⟩
    | int b =>
      left
      simp only [handleMessage, run_bind, run_ofRes, Codec.parseZmq, hp, andThen_ok, Json.idx, andThen_exc]
      exact ⟨by simp, still_pre.refl s⟩
    | float b =>
      left
      simp only [handleMessage, run_bind, run_ofRes, Codec.parseZmq, hp, andThen_ok, Json.idx, andThen_exc]
      exact ⟨by simp, still_pre.refl s⟩
    | str b =>
      left
      simp only [handleMessage, run_bind, run_ofRes, Codec.parseZmq, hp, andThen_ok, Json.idx, andThen_exc]
      exact ⟨by simp, still_pre.refl s⟩
    | arr b =>
      left
      simp only [handleMessage, run_bind, run_ofRes, Codec.parseZmq, hp, andThen_ok, Json.idx, andThen_exc]
      exact ⟨by simp, still_pre.refl s⟩

theorem run_processOne (raw : Str) (s : Dap σ) :
    (processOne cl raw).run s = andThen ((handleMessage cl raw).run s) fun _ s' => popFront.run s' := by
  simp only [processOne, run_bind]

theorem run_popFront (s : Dap σ) :
    popFront.run s = match s.queue with
      | [] => (.ub "pop_front on an empty queue", s)
      | _ :: q => (.ok (), { s with queue := q }) := by
  simp only [popFront, run_lift]
  cases s.queue <;> rfl

theorem quiet_popFront : Keeps Quiet (popFront (σ := σ)) := by
  intro s
  rw [run_popFront]
  split
  · exact quiet_pre.refl s
  · exact ⟨rfl, rfl, rfl, rfl, rfl, rfl⟩

/-- One iteration in terms of its parts. -/
theorem processOne_split (raw : Str) (s : Dap σ) :
    (((handleMessage cl raw).run s).1 = .ok () ∧ (processOne cl raw).run s = popFront.run ((handleMessage cl raw).run s).2) ∨
    (((handleMessage cl raw).run s).1 ≠ .ok () ∧ ((processOne cl raw).run s).2 = ((handleMessage cl raw).run s).2 ∧
      ((processOne cl raw).run s).1 = ((handleMessage cl raw).run s).1) := by
  rw [run_processOne]
  rcases hr : (handleMessage cl raw).run s with ⟨r, s'⟩
  cases r with
  | ok u => exact .inl ⟨rfl, by rw [andThen_ok]⟩
  | exc e => exact .inr ⟨by simp, by rw [andThen_exc], by rw [andThen_exc]⟩
  | ub e => exact .inr ⟨by simp, by rw [andThen_ub], by rw [andThen_ub]⟩
  | hang => exact .inr ⟨by simp, by rw [andThen_hang], by rw [andThen_hang]⟩

theorem popFront_ok {s s' : Dap σ} (h : popFront.run s = (.ok (), s')) :
    ∃ x q, s.queue = x :: q ∧ s' = { s with queue := q } := by
  rw [run_popFront] at h
  split at h
  · simp at h
  · next x q hq => exact ⟨x, q, hq, by simpa using h.symm⟩

/-- The record of one iteration: the message is routed, or it is not and nothing changes. -/
def RoutedBy (J : Codec) (s s' : Dap σ) : Prop :=
  ∃ new, s'.routed = s.routed ++ new ∧ routes s'.out = routes s.out ++ new.filterMap (routeOf J)

theorem routedBy_pre (J : Codec) : Pre (RoutedBy (σ := σ) J) :=
  ⟨fun _ => ⟨[], by simp, by simp⟩, fun ⟨n₁, a₁, b₁⟩ ⟨n₂, a₂, b₂⟩ => ⟨n₁ ++ n₂, by rw [a₂, a₁, List.append_assoc],
    by rw [b₂, b₁, List.append_assoc, List.filterMap_append]⟩⟩

theorem Quiet.routedBy {J : Codec} {s s' : Dap σ} (h : Quiet s s') : RoutedBy J s s' :=
  ⟨[], by simp [h.routed], by simp [h.out]⟩

theorem routedBy_message (raw : Str) : Keeps (RoutedBy cl.env.J) (handleMessage cl raw) := by
  intro s
  rcases handleMessage_cases (cl := cl) raw s with ⟨_, h⟩ | ⟨j, hj, hm, h⟩ | ⟨j, hj, hm, _, h⟩ | ⟨j, hj, hm, _, h⟩
  · exact h.quiet.routedBy
  · rw [h]
    have hq := quiet_exec (cl := cl) (cl.onEvent j)
      { s with routed := s.routed ++ [raw], out := s.out ++ [.event j] }
    exact ⟨[raw], by rw [hq.routed], by rw [hq.out, routes_snoc]; simp [routeOf, hj, hm, routes]⟩
  · rw [h]
    exact ⟨[raw], rfl, by simp [routeOf, hj, hm, routes]⟩
  · rw [h]
    exact ⟨[], by simp, by simp⟩

theorem routedBy_processOne (raw : Str) : Keeps (RoutedBy cl.env.J) (processOne cl raw) :=
  Keeps.bind (routedBy_pre _) (routedBy_message raw) fun _ s => (quiet_popFront s).routedBy

/-! ## Handlers that do not wait -/

/-- A completed iteration with a handler that does not wait. -/
theorem processOne_still (hnw : ∀ j, NoWait (cl.onEvent j)) {raw : Str} {q : List Str} {s s' : Dap σ}
    (hq : s.queue = raw :: q) (h : (processOne cl raw).run s = (.ok (), s')) :
    s'.queue = q ∧ s'.routed = s.routed ++ [raw] ∧ routes s'.out = routes s.out ++ [raw].filterMap (routeOf cl.env.J) ∧
    s'.requestStop = (s.requestStop || isDisconnectText cl.env.J raw) ∧ s'.stopped = s.stopped ∧ s'.tcpIn = s.tcpIn ∧
    s'.rcvd = s.rcvd ∧ s'.waited = s.waited ∧ s'.lost = s.lost ∧
    s'.replyDue = (s.replyDue && isEventText cl.env.J raw) ∧ s'.waitAttach = s.waitAttach := by
  rcases processOne_split (cl := cl) raw s with ⟨h1, h2⟩ | ⟨h1, _, h3⟩
  · rw [h] at h2
    rcases handleMessage_cases (cl := cl) raw s with ⟨hne, _⟩ | ⟨j, hj, hm, hr⟩ | ⟨j, hj, hm, hd, hr⟩ | ⟨j, hj, hm, _, hr⟩
    · exact absurd h1 hne
    · have hk := still_exec (cl := cl) (hnw j) { s with routed := s.routed ++ [raw], out := s.out ++ [.event j] }
      rw [← hr] at hk
      obtain ⟨x, q', e1, e2⟩ := popFront_ok h2.symm
      have : q' = q := by
        have := hk.queue
        rw [e1] at this
        simp only [hq, List.cons.injEq] at this
        exact this.2
      subst e2 this
      refine ⟨rfl, hk.quiet.routed, ?_, ?_, hk.stopped, hk.tcpIn, hk.rcvd, hk.waited, hk.lost,
        by simp [isEventText, hj, hm]; exact hk.quiet.replyDue, hk.quiet.waitAttach⟩
      · show routes ((handleMessage cl raw).run s).2.out = _
        rw [hk.quiet.out, routes_snoc]
        simp [routeOf, hj, hm, routes]
      · show ((handleMessage cl raw).run s).2.requestStop = _
        rw [hk.quiet.requestStop]
        simp [isDisconnectText, hj, hm]
    · rw [hr, run_popFront] at h2
      simp only [hq] at h2
      have : s' = _ := (Prod.mk.inj h2).2
      subst this
      refine ⟨rfl, rfl, ?_, ?_, rfl, rfl, rfl, rfl, rfl, ?_, rfl⟩
      · simp [routeOf, hj, hm, routes]
      · simp [isDisconnectText, hj, hm]
      · simp [isEventText, hj, hm]
    · rw [hr] at h1; cases h1
  · rw [h] at h3; exact absurd h3.symm h1

end Xeus
