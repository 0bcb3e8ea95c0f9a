import Verif.Link.Safe
import Verif.Link.LiveSpec
import Verif.Link.ClientSide
import Verif.Dap.EventProps
import Verif.Dap.RouteLemmas

/-!
# The client does not fail: lemmas about its program

No property statements here.
-/

namespace Xeus.Link

open Xeus Xeus.Spec K Link.Spec

variable {σ : Type} {cl : Client σ}

/-- The part of the state of the client that matters here. -/
structure Core where
  hdrIn : List Str
  ctlIn : List Str
  tcpIn : List Str
  replyDue : Bool
  waitAttach : Bool
  queue : List Str
  out : List DapEv

def core (s : Dap σ) : Core := ⟨s.hdrIn, s.ctlIn, s.tcpIn, s.replyDue, s.waitAttach, s.queue, s.out⟩

/-- What is known: the sockets reported by the poll and not read yet; an answer is due; the request has not been passed on yet;
the queue, and how many answers in it have not been sent yet. -/
structure Lv where
  hdr : Bool
  ctl : Bool
  tcp : Bool
  due : Bool
  pend : Option Str
  queue : List Str
  left : List Str

/-- How many answers can be sent. -/
def Lv.allow (g : Lv) : Nat := if g.due && g.pend.isNone then 1 else 0

/-- The messages that are not events. -/
def nonEvents (J : Codec) (l : List Str) : List Str := l.filter fun raw => !isEventText J raw

structure LOk (cl : Client σ) (g : Lv) (s : Dap σ) : Prop where
  due : s.replyDue = g.due
  queue : s.queue = g.queue
  plain : s.waitAttach = false
  hdr : g.hdr = true → s.hdrIn ≠ []
  ctl : g.ctl = true → s.ctlIn ≠ [] ∧ s.replyDue = false
  tcp : g.tcp = true → s.tcpIn ≠ []
  parent : ∃ p, dapParent cl s = .ok p ∧ p.canon = true ∧ JsonUtf8 p
  objects : ∀ raw ∈ g.queue, Proper cl.env.J raw
  stream : ∃ ms : List DapMsg, (∀ m ∈ ms, m.Ok ∧ Proper cl.env.J m.body) ∧ s.tcpIn.flatten <+: wireOfMsgs ms ∧
    (answers cl.env.J ms).length + g.left.length ≤ g.allow

/-- The stream is read at the boundaries of messages. -/
def Reads (cs cs' : List Str) (new : List Str) : Prop :=
  ∀ ms : List DapMsg, (∀ m ∈ ms, m.Ok) → cs.flatten <+: wireOfMsgs ms →
    ∃ n, cs.flatten = wireOfMsgs (ms.take n) ++ cs'.flatten ∧ new = bodies (ms.take n)

/-- Nothing that concerns the debugger or the adapter. -/
def Aside (e : DapEv) : Prop := match e with | .pub _ _ | .callback _ | .event _ => True | _ => False

inductive LMv (J : Codec) : Lv → Dap σ → Dap σ → Lv → Prop
  | quiet {g : Lv} {s s' : Dap σ} (ext : List DapEv) : (∀ e ∈ ext, Aside e) → core s' = { core s with out := s.out ++ ext } → LMv J g s s' g
  | header {g : Lv} {s s' : Dap σ} (x : Str) (r : List Str) : s.hdrIn = x :: r →
      core s' = { core s with hdrIn := r, out := s.out ++ [.header x] } → LMv J g s s' { g with hdr := false }
  | recv {g : Lv} {s s' : Dap σ} (m : Str) (r : List Str) : s.ctlIn = m :: r → g.due = false → g.pend = none →
      core s' = { core s with ctlIn := r, replyDue := true } → LMv J g s s' { g with ctl := false, due := true, pend := some m }
  | tcp {g : Lv} {s s' : Dap σ} (m : Str) : g.pend = some m → core s' = { core s with out := s.out ++ [.tcp m] } →
      LMv J g s s' { g with pend := none }
  | reply {g : Lv} {s s' : Dap σ} (b : Str) (l : List Str) : g.due = true → g.pend = none → g.left = b :: l →
      core s' = { core s with replyDue := false, out := s.out ++ [.reply b] } → LMv J g s s' { g with due := false, left := l }
  | read {g : Lv} {s s' : Dap σ} (cs new : List Str) : Reads s.tcpIn cs new → cs.length < s.tcpIn.length →
      core s' = { core s with tcpIn := cs, queue := s.queue ++ new } →
      LMv J g s s' { g with tcp := false, queue := g.queue ++ new, left := g.left ++ nonEvents J new }
  | pop {g : Lv} {s s' : Dap σ} (raw : Str) (q : List Str) : s.queue = raw :: q → core s' = { core s with queue := q } →
      LMv J g s s' { g with queue := q }

/-- The client waits for the rest of a message. -/
def Blk (g : Lv) (s : Dap σ) : Prop := g.tcp = true ∧ handleTcp s.queue s.tcpIn = .blocked

abbrev SafeC {α : Type} (cl : Client σ) (Q : Lv → α → Prop) (p : K (Dap σ) α) (g : Lv) : Prop :=
  Safe (LOk cl) (LMv cl.env.J) Blk Q p g

variable {α β : Type}

theorem lmv_same {g : Lv} {s s' : Dap σ} (h : core s' = core s) : LMv cl.env.J g s s' g :=
  .quiet [] (fun _ he => by cases he) (by rw [h]; simp [core])

theorem lmv_refl {g : Lv} (s : Dap σ) (_ : LOk cl g s) : LMv cl.env.J g s s g := lmv_same rfl

theorem nonEvents_append (J : Codec) (a b : List Str) : nonEvents J (a ++ b) = nonEvents J a ++ nonEvents J b := List.filter_append ..

/-! ## Events -/

theorem serialize_event (hK : LawfulCodec cl.env.J) (hc : CivilClient cl) {j p : Json} (hj : j.canon = true ∧ JsonUtf8 j)
    (hp : p.canon = true ∧ JsonUtf8 p) (a b : Nat) :
    ∃ wire, serializePub cl.env.C cl.env.J cl.env.auth .strict ⟨lit "debug_event", ⟨headerJson (newXguid (cl.env.guid a))
      cl.env.user cl.env.session (cl.env.now b) (lit "debug_event"), p, .obj [], j, []⟩⟩ = .ok wire := by
  have hrep : Representable (⟨headerOf (newXguid (cl.env.guid a)) cl.env.user cl.env.session (cl.env.now b) (lit "debug_event"),
      p, .obj [], j, []⟩ : Body) :=
    ⟨⟨headerOf_canon .., headerOf_utf8 (hexString_utf8 _) hc.user hc.session (hc.now _) (utf8_lit (by decide))⟩, hp,
     ⟨(emptyObj_printable .strict).1, (emptyObj_printable .strict).2 rfl⟩, hj⟩
  obtain ⟨g, h', p', md, c, e1, e2⟩ := serializeBase_deserialize cl.env.C cl.env.J hK cl.env.auth .strict _ hrep
  rw [headerJson_eq]
  exact ⟨lit "debug_event" :: delimiter :: g :: h' :: p' :: md :: c :: [], by simp only [serializePub, e1]; rfl⟩

theorem safe_forward (hK : LawfulCodec cl.env.J) (hc : CivilClient cl) {j : Json} (hj : j.canon = true ∧ JsonUtf8 j)
    (hcb : ∀ st, ∃ st', cl.callback j st = (.ok (), st')) (g : Lv) :
    SafeC cl (fun g' (_ : Unit) => g' = g) (forwardEvent cl j) g := by
  refine Safe.bind (Safe.lift fun s _ => .inr ?_)
  obtain ⟨st', hst⟩ := hcb s.st
  refine ⟨(), g, by rw [hst], .quiet [.callback j] (fun e he => by rw [List.mem_singleton.1 he]; trivial) rfl, ?_⟩
  refine Safe.bind (Safe.lift fun s _ => .inr ⟨_, g, rfl, lmv_same rfl, ?_⟩)
  refine Safe.bind (Safe.readR lmv_refl fun s' hs' => ?_)
  obtain ⟨p, h1, h2⟩ := hs'.parent
  refine ⟨p, h1, ?_⟩
  obtain ⟨wire, hw⟩ := serialize_event hK hc hj h2 s.guids s.clocks
  refine Safe.bind (Safe.ofRes hw ?_)
  exact Safe.modify (g' := g) (fun s _ => .quiet [.pub _ wire] (fun e he => by rw [List.mem_singleton.1 he]; trivial) rfl) rfl

theorem safe_exec (hK : LawfulCodec cl.env.J) (hc : CivilClient cl) {p : Prog σ DapOp α} (hp : Civil cl p) (g : Lv) :
    SafeC cl (fun g' (_ : α) => g' = g) (dapExec cl p) g := by
  induction hp with
  | ret => exact Safe.pure rfl
  | get _ ih => exact Safe.bind (Safe.read lmv_refl fun s _ => ih s.st)
  | set _ ih => exact Safe.bind (Safe.modify (g' := g) (fun s _ => lmv_same rfl) ih)
  | forward h1 h2 h3 _ ih =>
    refine Safe.bind (Safe.attempt (Safe.bind ((safe_forward hK hc ⟨h1, h2⟩ h3 g).mono fun g' _ hg => ?_)))
    subst hg
    exact Safe.pure ih
  | parent _ ih => exact Safe.bind (Safe.attempt (Safe.read lmv_refl fun s _ => ih _))

/-! ## The sockets -/

/-- Nothing is left to do. -/
structure Fin (J : Codec) (g : Lv) : Prop where
  hdr : g.hdr = false
  ctl : g.ctl = false
  tcp : g.tcp = false
  pend : g.pend = none
  left : g.left = nonEvents J g.queue

theorem safe_header {g : Lv} (hg : g.hdr = true) : SafeC cl (fun g' (_ : Unit) => g' = { g with hdr := false }) (handleHeader (σ := σ)) g := by
  refine Safe.lift fun s hs => .inr ?_
  rcases hq : s.hdrIn with _ | ⟨x, r⟩
  · exact absurd hq (hs.hdr hg)
  · exact ⟨(), _, rfl, .header x r hq (by simp [core]), rfl⟩

theorem safe_control {g : Lv} (hg : g.ctl = true) (hp : g.pend = none) :
    SafeC cl (fun g' (_ : Unit) => g' = { g with ctl := false, due := true }) (handleControl cl) g := by
  refine Safe.bind (Safe.lift fun s hs => .inr ?_)
  obtain ⟨h1, h2⟩ := hs.ctl hg
  rcases hq : s.ctlIn with _ | ⟨x, r⟩
  · exact absurd hq h1
  · simp only [h2, Bool.false_eq_true, if_false]
    refine ⟨x, { g with ctl := false, due := true, pend := some x }, rfl, .recv x r hq (hs.due.symm.trans h2) hp (by simp [core]), ?_⟩
    refine Safe.bind (Safe.read lmv_refl fun s hs => ?_)
    rw [hs.plain]
    refine Safe.modify (g' := { g with ctl := false, due := true, pend := none }) (fun s _ => ?_) ?_
    · exact .tcp (g := { g with ctl := false, due := true, pend := some x }) x rfl rfl
    · rw [← hp]

theorem handleTcp_reads {q cs q' cs' : List Str} (h : handleTcp q cs = .got (q ++ q') cs') : Reads cs cs' q' := by
  intro ms hms hpre
  rcases handleTcp_cases hms q hpre with ⟨k, n, h1, _, h2⟩ | ⟨_, h2⟩
  · rw [h] at h2
    simp only [Read.got.injEq, List.append_cancel_left_eq] at h2
    obtain ⟨rfl, rfl⟩ := h2
    refine ⟨n, ?_, rfl⟩
    rw [← h1.2.2.2, ← List.flatten_append, List.take_append_drop]
  · rw [h] at h2; cases h2

def Lv.more (J : Codec) (g : Lv) (new : List Str) : Lv :=
  { g with tcp := false, queue := g.queue ++ new, left := g.left ++ nonEvents J new }

theorem safe_read {g : Lv} (hg : g.tcp = true) :
    SafeC cl (fun g' (_ : Unit) => ∃ new, g' = g.more cl.env.J new) (readMessages (σ := σ)) g := by
  refine Safe.lift fun s hs => ?_
  obtain ⟨ms, h1, h2, _⟩ := hs.stream
  rcases handleTcp_cases (fun m hm => (h1 m hm).1) s.queue h2 with ⟨k, n, ⟨hn, hn', hk, hw⟩, _, h⟩ | ⟨_, h⟩
  · refine .inr ⟨(), _, by rw [h], ?_, bodies (ms.take n), rfl⟩
    refine .read (s.tcpIn.drop k) _ (handleTcp_reads h) ?_ (by rw [h]; rfl)
    have hk0 : 0 < k := by
      refine Nat.pos_of_ne_zero fun h0 => ?_
      subst h0
      obtain ⟨m, ms', hms⟩ : ∃ m ms', ms = m :: ms' := by
        cases ms with
        | nil => simp at hn'; omega
        | cons m ms' => exact ⟨m, ms', rfl⟩
      obtain ⟨n', rfl⟩ : ∃ n', n = n' + 1 := ⟨n - 1, by omega⟩
      subst hms
      have := msgOk_pos (h1 m List.mem_cons_self).1
      rw [List.take_succ_cons, wireOfMsgs_cons] at hw
      have hw' := congrArg List.length hw
      simp only [List.take_zero, List.flatten_nil, List.length_nil, List.length_append] at hw' this
      omega
    rw [List.length_drop]
    omega
  · exact .inl ⟨by rw [h], hg, h⟩

theorem safe_when {b : Bool} {p : K (Dap σ) Unit} {g : Lv} {Q : Lv → Unit → Prop} (h1 : b = true → SafeC cl Q p g)
    (h2 : b = false → Q g ()) : SafeC cl Q (whenK b p) g := by
  cases b with
  | true => exact h1 rfl
  | false => exact Safe.pure (h2 rfl)

theorem safe_afterPoll (a b c due : Bool) (q : List Str) : SafeC cl (fun g (_ : Unit) => Fin cl.env.J g) (afterPoll cl a b c)
    ⟨a, b, c, due, none, q, nonEvents cl.env.J q⟩ := by
  have tail : ∀ due, SafeC cl (fun g (_ : Unit) => Fin cl.env.J g) (whenK c readMessages)
      ⟨false, false, c, due, none, q, nonEvents cl.env.J q⟩ := by
    intro due
    refine safe_when (fun hc => (safe_read (g := ⟨false, false, c, due, none, q, nonEvents cl.env.J q⟩) hc).mono ?_)
      fun hc => ⟨rfl, rfl, hc, rfl, rfl⟩
    rintro g _ ⟨new, rfl⟩
    exact ⟨rfl, rfl, rfl, rfl, (nonEvents_append ..).symm⟩
  have mid : SafeC cl (fun g (_ : Unit) => Fin cl.env.J g) (whenK b (handleControl cl) >>= fun _ => whenK c readMessages)
      ⟨false, b, c, due, none, q, nonEvents cl.env.J q⟩ := by
    refine Safe.bind (safe_when (fun hb => (safe_control hb rfl).mono ?_) fun hb => ?_)
    · rintro g _ rfl
      exact tail true
    · subst hb
      exact tail due
  refine Safe.bind (safe_when (fun ha => (safe_header ha).mono ?_) fun ha => ?_)
  · rintro g _ rfl
    exact mid
  · subst ha
    exact mid

/-! ## The queue -/

theorem safe_pop {g : Lv} {raw : Str} {q : List Str} (hq : g.queue = raw :: q) :
    SafeC cl (fun g' (_ : Unit) => g' = { g with queue := q }) (popFront (σ := σ)) g := by
  refine Safe.lift fun s hs => .inr ?_
  have h : s.queue = raw :: q := hs.queue.trans hq
  rw [h]
  exact ⟨(), _, rfl, .pop raw q h (by simp [core]), rfl⟩

/-- What the codec says about a message that is an object. -/
theorem isEvent_object {J : Codec} {raw : Str} {kvs : List (Str × Json)} (h : J.parse raw = some (.obj kvs)) :
    isEventText J raw = isText (((Json.obj kvs).find? (lit "type")).getD .null) "event" := by
  rw [isText_getD]
  simp [isEventText, h, memberIs]

theorem safe_process (hK : LawfulCodec cl.env.J) (hc : CivilClient cl) {raw : Str} {q : List Str} {due : Bool}
    (ho : Proper cl.env.J raw) : SafeC cl (fun g (_ : Unit) => Fin cl.env.J g ∧ g.queue = q) (processOne cl raw)
      ⟨false, false, false, due, none, raw :: q, nonEvents cl.env.J (raw :: q)⟩ := by
  obtain ⟨kvs, hkv, hname⟩ := ho
  have hev := isEvent_object hkv
  refine Safe.bind (Safe.bind (Safe.ofRes (a := .obj kvs) (by simp [Codec.parseZmq, hkv]) ?_))
  refine Safe.bind (Safe.ofRes (idx_obj kvs _) ?_)
  cases he : isText (((Json.obj kvs).find? (lit "type")).getD .null) "event" with
  | true =>
    rw [he] at hev
    have hn : nonEvents cl.env.J (raw :: q) = nonEvents cl.env.J q := by simp [nonEvents, hev]
    simp only [if_true]
    refine Safe.bind (Safe.modify (g' := ⟨false, false, false, due, none, raw :: q, nonEvents cl.env.J (raw :: q)⟩)
      (fun s _ => .quiet [.event _] (fun e he => by rw [List.mem_singleton.1 he]; trivial) rfl) ?_)
    obtain ⟨h1, h2⟩ := hK.parse_wf _ _ hkv
    obtain ⟨name, hname⟩ := hname (by simpa [isEventText, hkv] using hev)
    refine (safe_exec hK hc (hc.handler _ name h1 h2 hname) _).mono ?_
    rintro g _ rfl
    refine (safe_pop (q := q) rfl).mono ?_
    rintro g _ rfl
    exact ⟨⟨rfl, rfl, rfl, rfl, hn⟩, rfl⟩
  | false =>
    rw [he] at hev
    have hn : nonEvents cl.env.J (raw :: q) = raw :: nonEvents cl.env.J q := by simp [nonEvents, hev]
    simp only [Bool.false_eq_true, if_false]
    refine Safe.bind (Safe.ofRes (idx_obj kvs _) ?_)
    refine Safe.bind (Safe.modify (g' := ⟨false, false, false, due, none, raw :: q, nonEvents cl.env.J (raw :: q)⟩)
      (fun s _ => lmv_same rfl) ?_)
    refine Safe.bind (Safe.lift fun s hs => .inr ?_)
    obtain ⟨ms, _, _, h3⟩ := hs.stream
    have hd : due = true := by
      cases due with
      | true => rfl
      | false => simp only [Lv.allow, Bool.false_and, Bool.false_eq_true, if_false, hn, List.length_cons] at h3; omega
    subst hd
    have hsd : s.replyDue = true := hs.due
    simp only [hsd, if_true]
    refine ⟨(), ⟨false, false, false, false, none, raw :: q, nonEvents cl.env.J q⟩, trivial,
      .reply (g := ⟨false, false, false, true, none, raw :: q, nonEvents cl.env.J (raw :: q)⟩) raw _ rfl rfl hn (by simp [core]), ?_⟩
    refine Safe.modify (g' := ⟨false, false, false, false, none, raw :: q, nonEvents cl.env.J q⟩) (fun s _ => lmv_same rfl) ?_
    refine (safe_pop (q := q) rfl).mono ?_
    rintro g _ rfl
    exact ⟨⟨rfl, rfl, rfl, rfl, rfl⟩, rfl⟩

end Xeus.Link
