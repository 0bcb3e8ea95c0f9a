import Verif.Link.Wp
import Verif.Debugger.Answers
import Verif.Debugger.Traffic

/-!
# The debugger's side of the exchanges: lemmas

No property statements here.
-/

namespace Xeus.Link

open Xeus Xeus.Spec K Link.Spec

variable {τ : Type} {d : Dbg.Debugger τ} {H : Str → Prop}

/-- What the debugger waits for. -/
inductive Ph where
  | idle
  | ack (h : Str)
  | reply (m : Str)
  deriving DecidableEq

/-- What is known: `m_is_started`, what is being waited for, and the rounds of the request in hand that are complete. -/
structure Req where
  started : Bool
  ph : Ph
  tr : List Round

/-- What has arrived for the debugger. -/
def Arrived (ph : Ph) (s : Dbg.State τ) : Prop :=
  match ph with
  | .idle => s.acks = [] ∧ s.replies = []
  | .ack _ => s.replies = [] ∧ (s.acks = [] ∨ s.acks = [lit "ACK"])
  | .reply _ => s.acks = [] ∧ (s.replies = [] ∨ ∃ r, s.replies = [r])

def ROk (g : Req) (s : Dbg.State τ) : Prop := s.started = g.started ∧ Arrived g.ph s

/-- A header has been sent and acknowledged. -/
def Headed (tr : List Round) : Prop := ∃ h, Round.header h ∈ tr

/-- What an access does to the sockets; `H` says which headers are sent. -/
inductive RMv (H : Str → Prop) : Req → Dbg.State τ → Dbg.State τ → Req → Prop
  | quiet {g s s' b} : g.ph = .idle → s'.started = b → s'.acks = s.acks → s'.replies = s.replies → s'.out = s.out →
      (b = true → g.started = true) → RMv H g s s' ⟨b, .idle, g.tr⟩
  | start {g s s' b} : g.ph = .idle → s'.started = b → s'.acks = s.acks → s'.replies = s.replies →
      s'.out = s.out ++ [.start b] → RMv H g s s' ⟨b, .idle, g.tr ++ [.start b]⟩
  | stop {g s s' b} : g.ph = .idle → s'.started = b → s'.acks = s.acks → s'.replies = s.replies →
      s'.out = s.out ++ [.stop] → (b = true → g.started = true) → RMv H g s s' ⟨b, .idle, g.tr ++ [.stop]⟩
  | header {g s s' b h} : H h → g.ph = .idle → s'.started = b → s'.acks = s.acks → s'.replies = s.replies →
      s'.out = s.out ++ [.header h] → g.started = true → RMv H g s s' ⟨b, .ack h, g.tr⟩
  | request {g s s' b m} : Headed g.tr → g.ph = .idle → s'.started = b → s'.acks = s.acks → s'.replies = s.replies →
      s'.out = s.out ++ [.request m] → (b = true → g.started = true) → RMv H g s s' ⟨b, .reply m, g.tr⟩
  | acked {g s s' b h} : g.ph = .ack h → s'.started = b → s.acks = lit "ACK" :: s'.acks → s'.replies = s.replies →
      s'.out = s.out → (b = true → g.started = true) → RMv H g s s' ⟨b, .idle, g.tr ++ [.header h]⟩
  | answered {g s s' b m r} : g.ph = .reply m → s'.started = b → s'.acks = s.acks → s.replies = r :: s'.replies →
      s'.out = s.out → (b = true → g.started = true) → RMv H g s s' ⟨b, .idle, g.tr ++ [.request m r]⟩

/-- Programs of the debugger. -/
abbrev RWp {α : Type} (H : Str → Prop) (Q : Req → Res α → Prop) (p : K (Dbg.State τ) α) (g : Req) : Prop := Wp ROk (RMv H) Q p g

theorem rmv_refl {b : Bool} {tr : List Round} (s : Dbg.State τ) (h : ROk ⟨b, .idle, tr⟩ s) : RMv H ⟨b, .idle, tr⟩ s s ⟨b, .idle, tr⟩ :=
  .quiet rfl h.1 rfl rfl rfl id

/-! ## Sending and receiving -/

theorem rwp_recvAck {Q : Req → Res Str → Prop} {b : Bool} {h : Str} {tr : List Round}
    (hq : Q ⟨b, .idle, tr ++ [.header h]⟩ (.ok (lit "ACK"))) : RWp (τ := τ) H Q Dbg.recvAck ⟨b, .ack h, tr⟩ := by
  refine Wp.lift fun s hs hh => ?_
  obtain ⟨h0, _, h1 | h1⟩ := hs
  · simp [h1] at hh
  · refine ⟨_, .acked (g := ⟨b, .ack h, tr⟩) (b := b) rfl ?_ ?_ ?_ ?_ id, ?_⟩ <;> simp only [h1] <;> first | exact h0 | exact hq | rfl

theorem rwp_recvReply {Q : Req → Res Str → Prop} {b : Bool} {m : Str} {tr : List Round}
    (hq : ∀ r, Q ⟨b, .idle, tr ++ [.request m r]⟩ (.ok r)) : RWp (τ := τ) H Q Dbg.recvReply ⟨b, .reply m, tr⟩ := by
  refine Wp.lift fun s hs hh => ?_
  obtain ⟨h0, _, h1 | ⟨r, h1⟩⟩ := hs
  · simp [h1] at hh
  · refine ⟨_, .answered (g := ⟨b, .reply m, tr⟩) (b := b) (r := r) rfl ?_ ?_ ?_ ?_ id, ?_⟩ <;> simp only [h1] <;> first | exact h0 | exact hq r | rfl

theorem rwp_sendHeader {Q : Req → Res Unit → Prop} {b : Bool} {tr : List Round} {header : Json}
    (hH : ∀ h, d.J.dump .strict header = some h → H h) (hb : b = true)
    (hf : d.J.dump .strict header = none → Q ⟨b, .idle, tr⟩ (.exc .typeError))
    (hq : ∀ h, d.J.dump .strict header = some h → Q ⟨b, .idle, tr ++ [.header h]⟩ (.ok ())) :
    RWp H Q (Dbg.sendHeader d header) ⟨b, .idle, tr⟩ := by
  refine Wp.bind (Wp.ofRes ?_)
  cases hd : d.J.dump .strict header with
  | none => simp only [Codec.writeZmq, hd]; exact hf hd
  | some h =>
    simp only [Codec.writeZmq, hd]
    refine Wp.bind (Wp.modify (g' := ⟨b, .ack h, tr⟩) (fun s hs => .header (hH h hd) rfl hs.1 rfl rfl rfl hb) ?_)
    exact Wp.bind (rwp_recvAck (hq h hd))

theorem rwp_forward {Q : Req → Res Json → Prop} {b : Bool} {tr : List Round} {m : Json} (ht : Headed tr)
    (hf : d.J.dump .strict m = none → Q ⟨b, .idle, tr⟩ (.exc .typeError))
    (hq : ∀ c, d.J.dump .strict m = some c → ∀ r, Q ⟨b, .idle, tr ++ [.request (dapFrame c) r]⟩ (d.J.parseZmq r)) :
    RWp H Q (Dbg.forwardMessage d m) ⟨b, .idle, tr⟩ := by
  refine Wp.bind (Wp.ofRes ?_)
  cases hd : d.J.dump .strict m with
  | none => simp only [Codec.writeZmq, hd]; exact hf hd
  | some c =>
    simp only [Codec.writeZmq, hd]
    refine Wp.bind (Wp.modify (g' := ⟨b, .reply (dapFrame c), tr⟩) (fun s hs => .request ht rfl hs.1 rfl rfl rfl id) ?_)
    exact Wp.bind (rwp_recvReply fun r => hq c hd r)

/-! ## Handlers -/

/-- Nothing but complete request rounds has been added; nothing at all unless `net`. -/
def Adds (J : Codec) (net b : Bool) (tr : List Round) (g : Req) : Prop :=
  g.ph = .idle ∧ g.started = b ∧ ∃ ext, g.tr = tr ++ ext ∧ (∀ x ∈ ext, IsRequest J x) ∧ (net = false → ext = [])

/-- Programs that do only that. -/
def Calm (d : Dbg.Debugger τ) (net : Bool) {α : Type} (p : K (Dbg.State τ) α) : Prop :=
  ∀ H b tr, (net = true → Headed tr) → RWp H (fun g _ => Adds d.J net b tr g) p ⟨b, .idle, tr⟩

variable {net : Bool} {α β : Type}

theorem adds_refl (J : Codec) (b : Bool) (tr : List Round) : Adds J net b tr ⟨b, .idle, tr⟩ :=
  ⟨rfl, rfl, [], by simp, by simp, fun _ => rfl⟩

theorem Adds.trans {J : Codec} {b : Bool} {tr : List Round} {g g' : Req} (h : Adds J net b tr g) (h' : Adds J net b g.tr g') :
    Adds J net b tr g' := by
  obtain ⟨_, _, e, h1, h2, h3⟩ := h
  obtain ⟨a, c, e', h1', h2', h3'⟩ := h'
  refine ⟨a, c, e ++ e', by rw [h1', h1, List.append_assoc], fun x hx => ?_, fun hn => by rw [h3 hn, h3' hn]; rfl⟩
  rcases List.mem_append.1 hx with hx | hx
  · exact h2 x hx
  · exact h2' x hx

theorem Adds.eq {J : Codec} {b : Bool} {tr : List Round} {g : Req} (h : Adds J net b tr g) : g = ⟨b, .idle, g.tr⟩ := by
  obtain ⟨b', ph, t⟩ := g
  obtain ⟨h1, h2, _⟩ := h
  simp only at h1 h2
  rw [h1, h2]

theorem Headed.adds {J : Codec} {b : Bool} {tr : List Round} {g : Req} (h : Headed tr) (ha : Adds J net b tr g) : Headed g.tr := by
  obtain ⟨_, _, ext, h1, _⟩ := ha
  obtain ⟨x, hx⟩ := h
  exact ⟨x, by rw [h1]; exact List.mem_append_left _ hx⟩

theorem Calm.bind {p : K (Dbg.State τ) α} {q : α → K (Dbg.State τ) β} (hp : Calm d net p) (hq : ∀ a, Calm d net (q a)) :
    Calm d net (p >>= q) := by
  intro H b tr ht
  refine Wp.bind ((hp H b tr ht).mono fun g r h => ?_)
  cases r with
  | ok a =>
    show RWp _ _ (q a) g
    rw [h.eq]
    exact (hq a H b g.tr fun hn => (ht hn).adds h).mono fun g' _ h' => h.trans h'
  | exc e => exact h
  | ub w => exact h
  | hang => exact h

theorem Calm.done (r : Res α) : Calm d net (K.done r : K (Dbg.State τ) α) := fun _ b tr _ => adds_refl _ b tr
theorem Calm.ofRes (r : Res α) : Calm d net (K.ofRes r : K (Dbg.State τ) α) := fun _ b tr _ => adds_refl _ b tr
theorem Calm.pure (a : α) : Calm d net (Pure.pure a : K (Dbg.State τ) α) := fun _ b tr _ => adds_refl _ b tr

theorem Calm.attempt {p : K (Dbg.State τ) α} (hp : Calm d net p) : Calm d net p.attempt := by
  intro H b tr ht
  refine Wp.attempt ((hp H b tr ht).mono fun g r h => ?_)
  cases r <;> exact h

theorem Calm.read (f : Dbg.State τ → α) : Calm d net (K.read f) :=
  fun _ b tr _ => Wp.read rmv_refl fun _ _ => adds_refl _ b tr

theorem Calm.readR (f : Dbg.State τ → Res α) : Calm d net (K.readR f) :=
  fun _ b tr _ => Wp.readR rmv_refl fun _ _ _ => adds_refl _ b tr

theorem Calm.modify {f : Dbg.State τ → Dbg.State τ}
    (h : ∀ s, (f s).started = s.started ∧ (f s).acks = s.acks ∧ (f s).replies = s.replies ∧ (f s).out = s.out) :
    Calm d net (K.modify f) := by
  intro H b tr _
  refine Wp.modify (g' := ⟨b, .idle, tr⟩) (fun s hs => ?_) (adds_refl _ b tr)
  obtain ⟨h1, h2, h3, h4⟩ := h s
  exact .quiet rfl (h1.trans hs.1) h2 h3 h4 id

theorem calm_forward (m : Json) : Calm d true (Dbg.forwardMessage d m) := by
  intro H b tr ht
  refine rwp_forward (ht rfl) (fun _ => adds_refl _ b tr) fun c hc r => ⟨rfl, rfl, [_], rfl, ?_, by simp⟩
  intro x hx
  rw [List.mem_singleton.1 hx]
  exact ⟨m, c, hc, rfl⟩

theorem calm_debugInfo (m : Json) : Calm d net (Dbg.debugInfo d m) :=
  Calm.bind (Calm.read _) fun _ => Calm.bind (Calm.readR _) fun _ => Calm.bind (Calm.ofRes _) fun _ =>
    Calm.bind (Calm.ofRes _) fun _ => Calm.read _

theorem calm_dumpCell (m : Json) : Calm d net (Dbg.dumpCell d m) := by
  refine Calm.bind (Calm.ofRes _) fun code => Calm.bind (Calm.readR _) fun path => Calm.bind (Calm.modify fun s => ?_) fun _ =>
    Calm.bind (Calm.ofRes _) fun _ => Calm.bind (Calm.ofRes _) fun _ => Calm.pure _
  unfold Dbg.dump
  split
  · exact ⟨rfl, rfl, rfl, rfl⟩
  · split <;> exact ⟨rfl, rfl, rfl, rfl⟩

theorem calm_source (m : Json) : Calm d net (Dbg.source d m) :=
  Calm.bind (Calm.ofRes _) fun _ => Calm.bind (Calm.read _) fun _ => Calm.bind (Calm.ofRes _) fun _ =>
    Calm.bind (Calm.ofRes _) fun _ => Calm.pure _

theorem calm_setBreakpoints (m : Json) : Calm d true (Dbg.setBreakpoints d m) :=
  Calm.bind (Calm.ofRes _) fun _ => Calm.bind (Calm.modify fun _ => ⟨rfl, rfl, rfl, rfl⟩) fun _ =>
    Calm.bind (Calm.ofRes _) fun _ => Calm.bind (Calm.ofRes _) fun _ =>
    Calm.bind (Calm.modify fun _ => ⟨rfl, rfl, rfl, rfl⟩) fun _ => calm_forward m

theorem calm_stackTrace (m : Json) : Calm d true (Dbg.stackTrace d m) := Calm.bind (calm_forward m) fun _ => Calm.ofRes _

theorem calm_variables (m : Json) : Calm d true (Dbg.variables d m) :=
  Calm.bind (calm_forward m) fun _ => Calm.bind (Calm.ofRes _) fun _ => Calm.ofRes _

theorem calm_continued (m : Json) : Calm d net (Dbg.continuedEvent (σ := τ) m) :=
  Calm.bind (Calm.ofRes _) fun _ => Calm.modify fun _ => ⟨rfl, rfl, rfl, rfl⟩

theorem calm_stopped (m : Json) : Calm d net (Dbg.stoppedEvent (σ := τ) m) :=
  Calm.bind (Calm.ofRes _) fun _ => Calm.modify fun _ => ⟨rfl, rfl, rfl, rfl⟩

theorem calm_sem (o : Dbg.Op) (h : net = false → Dbg.Spec.Sends o = false) : Calm d net (Dbg.sem d o) := by
  have hn : Dbg.Spec.Sends o = true → net = true := by
    intro hs; cases net
    · rw [h rfl] at hs; cases hs
    · rfl
  cases o with
  | isStarted => exact Calm.read _
  | stoppedThreads => exact Calm.read _
  | forward m => rw [hn rfl]; exact Calm.bind (calm_forward m) fun _ => Calm.pure _
  | debugInfo m => exact Calm.bind (calm_debugInfo m) fun _ => Calm.pure _
  | dumpCell m => exact Calm.bind (calm_dumpCell m) fun _ => Calm.pure _
  | setBreakpoints m => rw [hn rfl]; exact Calm.bind (calm_setBreakpoints m) fun _ => Calm.pure _
  | source m => exact Calm.bind (calm_source m) fun _ => Calm.pure _
  | stackTrace m => rw [hn rfl]; exact Calm.bind (calm_stackTrace m) fun _ => Calm.pure _
  | variables m => rw [hn rfl]; exact Calm.bind (calm_variables m) fun _ => Calm.pure _
  | continuedEvent m => exact Calm.bind (calm_continued m) fun _ => Calm.pure _
  | stoppedEvent m => exact Calm.bind (calm_stopped m) fun _ => Calm.pure _

theorem calm_exec (p : Prog τ Dbg.Op α) (h : Dbg.Spec.Calls (fun o => net = false → Dbg.Spec.Sends o = false) p) :
    Calm d net (Dbg.exec d p) := by
  induction p with
  | ret a => exact Calm.pure a
  | throw e => exact Calm.done _
  | ub w => exact Calm.ofRes _
  | hang => exact Calm.ofRes _
  | get k ih => exact Calm.bind (Calm.read _) fun s => ih s (h s)
  | set st k ih => exact Calm.bind (Calm.modify fun _ => ⟨rfl, rfl, rfl, rfl⟩) fun _ => ih h
  | call o k ih => exact Calm.bind (calm_sem o h.1).attempt fun r => ih r (h.2 r)

theorem calls_true (p : Prog τ Dbg.Op α) : Dbg.Spec.Calls (fun o => true = false → Dbg.Spec.Sends o = false) p := by
  induction p with
  | get k ih => exact fun s => ih s
  | set st k ih => exact ih
  | call o k ih => exact ⟨fun h => (by cases h), fun r => ih r⟩
  | _ => trivial

theorem calls_mono {P P' : Dbg.Op → Prop} (hP : ∀ o, P o → P' o) {p : Prog τ Dbg.Op α} (h : Dbg.Spec.Calls P p) : Dbg.Spec.Calls P' p := by
  induction p with
  | get k ih => exact fun s => ih s (h s)
  | set st k ih => exact ih h
  | call o k ih => exact ⟨hP _ h.1, fun r => ih r (h.2 r)⟩
  | _ => trivial

theorem calm_handler (m : Json) (h : Dbg.Handler τ) : Calm d true (Dbg.runHandler d m h) := by
  cases h with
  | debugInfo => exact calm_debugInfo m
  | dumpCell => exact calm_dumpCell m
  | setBreakpoints => exact calm_setBreakpoints m
  | source => exact calm_source m
  | stackTrace => exact calm_stackTrace m
  | variables => exact calm_variables m
  | user f => exact calm_exec _ (calls_true _)

theorem calm_plain (hd : Dbg.Spec.Local d) {name : Str} {h : Dbg.Handler τ} (hh : d.requestHandler false name = some h) (m : Json) :
    Calm d false (Dbg.runHandler d m h) := by
  rcases List.mem_append.1 (Dbg.requestHandler_mem hh) with hm | hm
  · simp only [List.mem_cons, List.not_mem_nil, or_false, Prod.mk.injEq] at hm
    rcases hm with ⟨_, _, rfl⟩ | ⟨_, h', _⟩ | ⟨_, h', _⟩ | ⟨_, h', _⟩ | ⟨_, h', _⟩ | ⟨_, h', _⟩
    · exact calm_debugInfo m
    all_goals cases h'
  · obtain ⟨f, rfl, hf⟩ := hd.requests _ _ hm
    exact calm_exec _ (calls_mono (fun o ho _ => ho) (hf m))

/-! ## A whole request -/

/-- `m_is_started` after some rounds. -/
def after (b : Bool) : List Round → Bool
  | [] => b
  | .start c :: l => after c l
  | .stop :: l => after false l
  | _ :: l => after b l

theorem after_append (b : Bool) (l l' : List Round) : after b (l ++ l') = after (after b l) l' := by
  induction l generalizing b with
  | nil => rfl
  | cons x l ih => cases x <;> simp [after, ih]

theorem after_requests {J : Codec} {b : Bool} {l : List Round} (h : ∀ x ∈ l, IsRequest J x) : after b l = b := by
  induction l with
  | nil => rfl
  | cons x l ih =>
    have hx := h x List.mem_cons_self
    cases x <;> first | exact (hx : False).elim | exact ih fun y hy => h y (List.mem_cons_of_mem _ hy)

/-- A command that is neither special nor handled by the kernel itself. -/
structure Forwarded (d : Dbg.Debugger τ) (m : Json) : Prop where
  out : ∃ name, m.cidx (lit "command") = .ok (.str name) ∧ name ≠ lit "initialize" ∧ name ≠ lit "disconnect" ∧
    d.requestHandler false name = none ∧ d.requestHandler true name = none

/-- What is known of a request that was processed. -/
structure Good (d : Dbg.Debugger τ) (header m : Json) (b : Bool) (g : Req) (r : Res Json) : Prop where
  idle : g.ph = .idle
  started : g.started = after b g.tr
  shape : CallRounds d.J header g.tr
  forwarded : Forwarded d m → b = true → ∀ j, r = .ok j → ∃ h c a, d.J.dump .strict header = some h ∧ d.J.dump .strict m = some c ∧
    g.tr = [.header h, .request (dapFrame c) a] ∧ d.J.parse a = some j

/-- What has been done before `dispatch`. -/
def Begun (b : Bool) (g : Req) : Prop :=
  (g = ⟨b, .idle, []⟩) ∨ (∃ c, b = false ∧ g = ⟨c, .idle, [.start c]⟩)

theorem rwp_callStart {b : Bool} (hb : b = false) : RWp H (fun g _ => Begun b g) (Dbg.callStart d) ⟨b, .idle, []⟩ := by
  refine Wp.lift fun s hs hh => ?_
  subst hb
  rcases hst : d.start s.st with ⟨r, st⟩
  cases r with
  | ok c =>
    refine ⟨⟨c, .idle, [.start c]⟩, ?_, ?_⟩
    · refine .start (g := ⟨false, .idle, []⟩) rfl ?_ ?_ ?_ ?_ <;> simp
    · exact .inr ⟨c, rfl, rfl⟩
  | exc e =>
    refine ⟨⟨false, .idle, []⟩, ?_, .inl rfl⟩
    refine .quiet (g := ⟨false, .idle, []⟩) rfl ?_ ?_ ?_ ?_ id <;> simp
    exact hs.1
  | ub w =>
    refine ⟨⟨false, .idle, []⟩, ?_, .inl rfl⟩
    refine .quiet (g := ⟨false, .idle, []⟩) rfl ?_ ?_ ?_ ?_ id <;> simp
    exact hs.1
  | hang => simp [hst] at hh

theorem rwp_initPart (m command : Json) (b : Bool) :
    RWp H (fun g r => Begun b g ∧ (isText command "initialize" = false → r = .ok (.obj []) ∧ g = ⟨b, .idle, []⟩))
      (Dbg.initPart d m command) ⟨b, .idle, []⟩ := by
  unfold Dbg.initPart
  cases isText command "initialize" with
  | false => exact ⟨.inl rfl, fun _ => ⟨rfl, rfl⟩⟩
  | true =>
    refine Wp.bind (Wp.read rmv_refl fun s hs => ?_)
    show RWp _ _ (if s.started then _ else _) _
    rw [hs.1]
    cases b with
    | true => exact Wp.pure ⟨.inl rfl, fun h => by cases h⟩
    | false =>
      refine Wp.bind ((rwp_callStart rfl).mono fun g r h => ?_)
      cases r with
      | ok c =>
        cases c
        · refine Wp.bind (Wp.ofRes ?_)
          cases m.cidx (lit "seq") <;> exact ⟨h, fun h => by cases h⟩
        · exact ⟨h, fun h => by cases h⟩
      | exc e => exact ⟨h, fun h => by cases h⟩
      | ub w => exact ⟨h, fun h => by cases h⟩
      | hang => exact ⟨h, fun h => by cases h⟩

/-- What `dispatch` adds. -/
def Middle (J : Codec) (header : Json) (b : Bool) (tr : List Round) (g : Req) : Prop :=
  g.ph = .idle ∧ g.started = b ∧ ∃ mid, g.tr = tr ++ mid ∧ after b mid = b ∧
    (mid = [] ∨ ∃ h reqs, J.dump .strict header = some h ∧ mid = .header h :: reqs ∧ ∀ x ∈ reqs, IsRequest J x)

theorem rwp_dispatch (hd : Dbg.Spec.Local d) {header : Json} (hH : ∀ h, d.J.dump .strict header = some h → H h) (m reply : Json) (name : Str) (b : Bool) (tr : List Round) :
    RWp H (fun g r => Middle d.J header b tr g ∧ (d.requestHandler false name = none → d.requestHandler true name = none → b = true →
        ∀ j, r = .ok j → ∃ h c a, d.J.dump .strict header = some h ∧ d.J.dump .strict m = some c ∧
          g.tr = tr ++ [.header h, .request (dapFrame c) a] ∧ d.J.parse a = some j))
      (Dbg.dispatch d header m reply name (d.requestHandler false name)) ⟨b, .idle, tr⟩ := by
  have nothing : Middle d.J header b tr ⟨b, .idle, tr⟩ := ⟨rfl, rfl, [], by simp, rfl, .inl rfl⟩
  cases hh : d.requestHandler false name with
  | some h =>
    refine (calm_plain hd hh m H b tr (fun h => by cases h)).mono fun g r ⟨h1, h2, ext, h3, _, h4⟩ => ⟨?_, fun hx => by cases hx⟩
    rw [h4 rfl, List.append_nil] at h3
    exact ⟨h1, h2, [], by simp [h3], rfl, .inl rfl⟩
  | none =>
    refine Wp.bind (Wp.read rmv_refl fun s hs => ?_)
    show RWp _ _ (if s.started then _ else _) _
    rw [hs.1]
    cases b with
    | false => exact Wp.pure ⟨nothing, fun _ _ h => by cases h⟩
    | true =>
      refine Wp.bind (rwp_sendHeader hH rfl (fun _ => ⟨nothing, fun _ _ _ j hj => by cases hj⟩) fun h hh => ?_)
      show RWp _ _ (Dbg.startedRequest d m (d.requestHandler true name)) _
      cases hk : d.requestHandler true name with
      | some k =>
        refine (calm_handler m k H true _ fun _ => ⟨h, by simp⟩).mono fun g r ⟨h1, h2, ext, h3, h4, _⟩ => ⟨?_, fun _ hx => by cases hx⟩
        exact ⟨h1, h2, .header h :: ext, by simp [h3], (after_requests (b := true) h4 : after true ext = true), .inr ⟨h, ext, hh, rfl, h4⟩⟩
      | none =>
        refine rwp_forward ⟨h, by simp⟩ (fun _ => ?_) fun c hc a => ?_
        · exact ⟨⟨rfl, rfl, [.header h], rfl, rfl, .inr ⟨h, [], hh, rfl, by simp⟩⟩, fun _ _ _ j hj => by cases hj⟩
        · refine ⟨⟨rfl, rfl, [.header h, .request (dapFrame c) a], by simp, rfl, .inr ⟨h, [_], hh, rfl, ?_⟩⟩, ?_⟩
          · intro x hx
            rw [List.mem_singleton.1 hx]
            exact ⟨m, c, hc, rfl⟩
          · intro _ _ _ j hj
            refine ⟨h, c, a, hh, hc, by simp, ?_⟩
            unfold Codec.parseZmq at hj
            split at hj <;> simp_all

theorem rwp_disconnect (command : Json) (b : Bool) (tr : List Round) :
    RWp H (fun g _ => g.ph = .idle ∧ ((g.tr = tr ∧ g.started = b) ∨ (isText command "disconnect" = true ∧ g.tr = tr ++ [.stop] ∧
        g.started = false)))
      (Dbg.disconnectPart d command) ⟨b, .idle, tr⟩ := by
  unfold Dbg.disconnectPart
  cases isText command "disconnect" with
  | false => exact ⟨rfl, .inl ⟨rfl, rfl⟩⟩
  | true =>
    refine Wp.bind (Wp.lift fun s hs hh => ?_)
    rcases hst : d.stop s.st with ⟨r, st⟩
    cases r with
    | ok u =>
      refine ⟨⟨b, .idle, tr ++ [.stop]⟩, ?_, ?_⟩
      · refine .stop (g := ⟨b, .idle, tr⟩) rfl ?_ ?_ ?_ ?_ id <;> simp
        exact hs.1
      · refine Wp.bind (Wp.modify (g' := ⟨b, .idle, tr ++ [.stop]⟩) (fun s hs => by
          refine .quiet (g := ⟨b, .idle, tr ++ [.stop]⟩) rfl ?_ ?_ ?_ ?_ id <;> first | rfl | exact hs.1) ?_)
        refine Wp.bind (Wp.modify (g' := ⟨b, .idle, tr ++ [.stop]⟩) (fun s hs => by
          refine .quiet (g := ⟨b, .idle, tr ++ [.stop]⟩) rfl ?_ ?_ ?_ ?_ id <;> first | rfl | exact hs.1) ?_)
        refine Wp.modify (g' := ⟨false, .idle, tr ++ [.stop]⟩) (fun s hs => by
          refine .quiet (g := ⟨b, .idle, tr ++ [.stop]⟩) (b := false) rfl ?_ ?_ ?_ ?_ (fun h => nomatch h) <;> rfl) ?_
        exact ⟨rfl, .inr ⟨rfl, rfl, rfl⟩⟩
    | exc e =>
      refine ⟨⟨b, .idle, tr⟩, ?_, ?_⟩
      · refine .quiet (g := ⟨b, .idle, tr⟩) rfl ?_ ?_ ?_ ?_ id <;> simp
        exact hs.1
      · exact ⟨rfl, .inl ⟨rfl, rfl⟩⟩
    | ub w =>
      refine ⟨⟨b, .idle, tr⟩, ?_, ?_⟩
      · refine .quiet (g := ⟨b, .idle, tr⟩) rfl ?_ ?_ ?_ ?_ id <;> simp
        exact hs.1
      · exact ⟨rfl, .inl ⟨rfl, rfl⟩⟩
    | hang => simp [hst] at hh

theorem rwp_request (hd : Dbg.Spec.Local d) (header m : Json) (b : Bool) :
    RWp (fun h => d.J.dump .strict header = some h) (Good d header m b) (Dbg.processRequest d header m) ⟨b, .idle, []⟩ := by
  have none_ : ∀ r : Res Json, (∀ j, r ≠ .ok j) → Good d header m b ⟨b, .idle, []⟩ r := fun r hr =>
    ⟨rfl, rfl, ⟨[], [], [], rfl, .inl rfl, .inl rfl, .inl rfl⟩, fun _ _ j hj => absurd hj (hr j)⟩
  have begun : ∀ (r : Res Json) (g : Req), Begun b g → (∀ j, r ≠ .ok j) → Good d header m b g r := by
    intro r g hg hr
    rcases hg with rfl | ⟨c, hb, rfl⟩
    · exact none_ r hr
    · exact ⟨rfl, rfl, ⟨[.start c], [], [], rfl, .inr ⟨c, rfl⟩, .inl rfl, .inl rfl⟩, fun _ _ j hj => absurd hj (hr j)⟩
  refine Wp.bind (Wp.ofRes ?_)
  cases hc : m.cidx (lit "command") with
  | exc e => exact none_ _ fun _ h => by cases h
  | ub w => exact none_ _ fun _ h => by cases h
  | hang => exact none_ _ fun _ h => by cases h
  | ok command =>
    refine Wp.bind ((rwp_initPart m command b).mono fun g r ⟨hg, hi⟩ => ?_)
    cases r with
    | exc e => exact begun _ g hg fun _ h => by cases h
    | ub w => exact begun _ g hg fun _ h => by cases h
    | hang => exact begun _ g hg fun _ h => by cases h
    | ok reply₀ =>
      refine Wp.bind (Wp.ofRes ?_)
      cases hn : command.getStr with
      | exc e => exact begun _ g hg fun _ h => by cases h
      | ub w => exact begun _ g hg fun _ h => by cases h
      | hang => exact begun _ g hg fun _ h => by cases h
      | ok name =>
        have hcom : command = .str name := Dbg.getStr_ok.1 hn
        have hgi : g = ⟨g.started, .idle, g.tr⟩ := by rcases hg with rfl | ⟨c, _, rfl⟩ <;> rfl
        show RWp _ _ (Dbg.dispatch d header m reply₀ name (d.requestHandler false name) >>= _) g
        rw [hgi]
        have hgs : g.started = after b g.tr := by rcases hg with rfl | ⟨c, _, rfl⟩ <;> rfl
        have hbeg : g.tr = [] ∨ ∃ c, g.tr = [.start c] := by
          rcases hg with rfl | ⟨c, _, rfl⟩
          · exact .inl rfl
          · exact .inr ⟨c, rfl⟩
        have final : ∀ (g₁ g₂ : Req) (r : Res Json), Middle d.J header g.started g.tr g₁ → g₂.ph = .idle →
            ((g₂.tr = g₁.tr ∧ g₂.started = g.started) ∨ (isText command "disconnect" = true ∧ g₂.tr = g₁.tr ++ [.stop] ∧ g₂.started = false)) →
            (d.requestHandler false name = none → d.requestHandler true name = none → g.started = true → ∀ j, r = .ok j →
              ∃ h c a, d.J.dump .strict header = some h ∧ d.J.dump .strict m = some c ∧
              g₁.tr = g.tr ++ [.header h, .request (dapFrame c) a] ∧ d.J.parse a = some j) → Good d header m b g₂ r := by
          intro g₁ g₂ r ⟨_, _, mid, hmid, ha, hshape⟩ hid hfin hfw
          have key : ∃ end_, g₂.tr = g₁.tr ++ end_ ∧ (end_ = [] ∨ (isText command "disconnect" = true ∧ end_ = [.stop])) ∧
              g₂.started = after g.started end_ := by
            rcases hfin with ⟨h1, h2⟩ | ⟨h0, h1, h2⟩
            · exact ⟨[], by simp [h1], .inl rfl, h2⟩
            · exact ⟨[.stop], h1, .inr ⟨h0, rfl⟩, h2⟩
          obtain ⟨end_, h1, h2, h3⟩ := key
          refine ⟨hid, ?_, ⟨g.tr, mid, end_, by rw [h1, hmid], hbeg, ?_, hshape⟩, ?_⟩
          · rw [h3, h1, hmid, after_append, after_append, ← hgs, ha]
          · rcases h2 with h2 | ⟨_, h2⟩
            · exact .inl h2
            · exact .inr h2
          · rintro ⟨name', hf, hni, hnd, hp, hs⟩ hb j hj
            rw [hc] at hf
            cases hf
            cases hcom
            have hni' : isText (.str name) "initialize" = false := by simp [Dbg.isText_str, hni]
            have hnd' : isText (.str name) "disconnect" = false := by simp [Dbg.isText_str, hnd]
            have hg₀ := (hi hni').2
            have hend : end_ = [] := by
              rcases h2 with h2 | ⟨h2, _⟩
              · exact h2
              · rw [hnd'] at h2; cases h2
            obtain ⟨h, c, a, k1, k2, k3, k4⟩ := hfw hp hs (by rw [hg₀]; exact hb) j hj
            refine ⟨h, c, a, k1, k2, ?_, k4⟩
            rw [h1, hend, k3, hg₀]; rfl
        refine Wp.bind ((rwp_dispatch hd (fun h hh => hh) m reply₀ name g.started g.tr).mono fun g₁ r ⟨hm, hfw⟩ => ?_)
        have hg₁ : g₁ = ⟨g.started, .idle, g₁.tr⟩ := by
          obtain ⟨h1, h2, _⟩ := hm
          obtain ⟨x, y, z⟩ := g₁
          simp only at h1 h2
          rw [h1, h2]
        have stay : ∀ r : Res Json, (∀ j, r ≠ .ok j) → Good d header m b g₁ r := fun r hr =>
          final g₁ g₁ r hm hm.1 (.inl ⟨rfl, hm.2.1⟩) fun _ _ _ j hj => absurd hj (hr j)
        cases r with
        | exc e => exact stay _ fun _ h => by cases h
        | ub w => exact stay _ fun _ h => by cases h
        | hang => exact stay _ fun _ h => by cases h
        | ok reply =>
          show RWp _ _ (Dbg.disconnectPart d command >>= fun _ => pure reply) g₁
          rw [hg₁]
          refine Wp.bind ((rwp_disconnect command g.started g₁.tr).mono fun g₂ r₂ ⟨h1, h2⟩ => ?_)
          cases r₂ with
          | ok u => exact final g₁ g₂ _ hm h1 h2 hfw
          | exc e => exact final g₁ g₂ _ hm h1 h2 fun _ _ _ j hj => by cases hj
          | ub w => exact final g₁ g₂ _ hm h1 h2 fun _ _ _ j hj => by cases hj
          | hang => exact final g₁ g₂ _ hm h1 h2 fun _ _ _ j hj => by cases hj

end Xeus.Link
