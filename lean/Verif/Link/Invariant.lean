import Verif.Link.Requester
import Verif.Link.ClientSide

/-!
# The debugger and the client together: the invariant

No property statements here.
-/

namespace Xeus.Link

open Xeus Xeus.Spec K Link.Spec

variable {τ σ : Type} {d : Dbg.Debugger τ} {cl : Client σ}

/-! ## The record -/

theorem exchanged_append (a b : List LinkEv) : exchanged (a ++ b) = exchanged a ++ exchanged b := List.filter_append ..
theorem clientLog_append (a b : List LinkEv) : clientLog (a ++ b) = clientLog a ++ clientLog b := List.filter_append ..

theorem happens_append (a b : List Round) : happens (a ++ b) = happens a ++ happens b := List.flatMap_append ..
theorem happens_one (a : Round) : happens [a] = a.events := by simp [happens]

theorem exchanged_own {J : Codec} {h : Str} {ext : List DapEv} (he : OwnAll J h ext) : exchanged (ext.map .cli) = [] := by
  induction ext with
  | nil => rfl
  | cons e ext ih =>
    have h1 := (he e List.mem_cons_self).1
    have h2 := ih fun x hx => he x (List.mem_cons_of_mem _ hx)
    cases e <;> first | exact (h1 : False).elim | (simpa [exchanged] using h2)

theorem clientLog_cli (ext : List DapEv) : clientLog (ext.map .cli) = ext.map .cli := by
  induction ext with
  | nil => rfl
  | cons e ext ih => simp only [clientLog, List.map_cons, List.filter_cons] at ih ⊢; rw [ih]; rfl

theorem acksOf_own {J : Codec} {h : Str} {ext : List DapEv} (he : OwnAll J h ext) : acksOf ext = [] ∧ repliesOf ext = [] := by
  induction ext with
  | nil => exact ⟨rfl, rfl⟩
  | cons e ext ih =>
    have h1 := (he e List.mem_cons_self).1
    have h2 := ih fun x hx => he x (List.mem_cons_of_mem _ hx)
    cases e <;> first | exact (h1 : False).elim | exact h2

/-- The header received last. -/
def lastHdr (log : List LinkEv) : Str :=
  ((log.filterMap fun | .cli (.header h) => some h | _ => none).getLast?).getD []

theorem lastHdr_skip {log ext : List LinkEv} (h : ∀ e ∈ ext, ∀ x, e ≠ .cli (.header x)) : lastHdr (log ++ ext) = lastHdr log := by
  have : (ext.filterMap fun | .cli (.header h) => some h | _ => none) = ([] : List Str) := by
    rw [List.filterMap_eq_nil_iff]
    intro e he
    split
    · exact absurd rfl (h _ he _)
    · rfl
  simp only [lastHdr, List.filterMap_append, this, List.append_nil]

theorem lastHdr_header (log : List LinkEv) (x : Str) : lastHdr (log ++ [.cli (.header x)]) = x := by
  simp [lastHdr, List.filterMap_append]

/-- All events are attributed to the header received last. -/
def Attr (J : Codec) (log : List LinkEv) : Prop :=
  ∀ pre m w post, log = pre ++ .cli (.pub m w) :: post → parentOf J (lastHdr pre) = some m.body.parent

theorem attr_snoc {J : Codec} {log : List LinkEv} {e : LinkEv} (h : Attr J log)
    (he : ∀ m w, e = .cli (.pub m w) → parentOf J (lastHdr log) = some m.body.parent) : Attr J (log ++ [e]) := by
  intro pre m w post hx
  rcases List.eq_nil_or_concat post with rfl | ⟨post', z, rfl⟩
  · have := List.append_inj' hx rfl
    rw [← this.1]
    exact he m w (by simpa using this.2)
  · rw [List.concat_eq_append] at hx
    have h' : log ++ [e] = (pre ++ .cli (.pub m w) :: post') ++ [z] := by simpa using hx
    exact h pre m w post' (List.append_inj' h' rfl).1

theorem attr_append {J : Codec} {log ext : List LinkEv} (h : Attr J log) (hh : ∀ e ∈ ext, ∀ x, e ≠ .cli (.header x))
    (he : ∀ e ∈ ext, ∀ m w, e = .cli (.pub m w) → parentOf J (lastHdr log) = some m.body.parent) : Attr J (log ++ ext) := by
  induction ext generalizing log with
  | nil => simpa using h
  | cons e ext ih =>
    have : log ++ e :: ext = (log ++ [e]) ++ ext := by simp
    rw [this]
    refine ih (attr_snoc h (he e List.mem_cons_self)) (fun x hx => hh x (List.mem_cons_of_mem _ hx)) fun x hx => ?_
    rw [lastHdr_skip fun y hy => by rw [List.mem_singleton.1 hy]; exact hh e List.mem_cons_self]
    exact he x (List.mem_cons_of_mem _ hx)

/-- Requests received have been sent to the adapter, except possibly the last. -/
def Verb (log : List LinkEv) (pend : Option Str) : Prop :=
  PassedOn log ∧ ∀ pre m, clientLog log = pre ++ [.took m] → pend = some m

theorem verb_snoc {log : List LinkEv} {pend pend' : Option Str} {e : LinkEv} (h : Verb log pend) (hc : clientLog [e] = [e])
    (h1 : pend = none ∨ ∃ m, pend = some m ∧ e = .cli (.tcp m)) (h2 : ∀ m, e = .took m → pend' = some m) :
    Verb (log ++ [e]) pend' := by
  constructor
  · intro pre m x post hx
    rw [clientLog_append, hc] at hx
    rcases List.eq_nil_or_concat post with rfl | ⟨post', z, rfl⟩
    · have hx' : clientLog log ++ [e] = (pre ++ [.took m]) ++ [x] := by simpa using hx
      have := List.append_inj' hx' rfl
      have hp := h.2 pre m this.1
      have he : e = x := by simpa using this.2
      rcases h1 with h1 | ⟨m', h1, h1'⟩
      · rw [h1] at hp; cases hp
      · rw [h1] at hp; cases hp; rw [← he, h1']
    · rw [List.concat_eq_append] at hx
      have hx' : clientLog log ++ [e] = (pre ++ .took m :: x :: post') ++ [z] := by simpa using hx
      exact h.1 pre m x post' (List.append_inj' hx' rfl).1
  · intro pre m hx
    rw [clientLog_append, hc] at hx
    have := (List.append_inj' hx rfl).2
    exact h2 m (by simpa using this)

theorem verb_none {log : List LinkEv} {ext : List DapEv} (h : Verb log none) : Verb (log ++ ext.map .cli) none := by
  induction ext generalizing log with
  | nil => simpa using h
  | cons e ext ih =>
    have : log ++ List.map LinkEv.cli (e :: ext) = (log ++ [.cli e]) ++ ext.map .cli := by simp
    rw [this]
    exact ih (verb_snoc h rfl (.inl rfl) fun m hm => by cases hm)

theorem verb_quiet {log ext : List LinkEv} {pend : Option Str} (h : Verb log pend) (hc : clientLog ext = []) : Verb (log ++ ext) pend := by
  unfold Verb PassedOn at *
  rw [clientLog_append, hc, List.append_nil]
  exact h

/-! ## The sockets -/

/-- What is on its way, and what has happened of the round. -/
inductive Net (t : Dbg.State τ) (c : Dap σ) : Ph → List LinkEv → Prop
  | idle : c.hdrIn = [] → c.ctlIn = [] → c.replyDue = false → t.acks = [] → t.replies = [] → Net t c .idle []
  | hdrSent {h} : c.hdrIn = [h] → c.ctlIn = [] → c.replyDue = false → t.acks = [] → t.replies = [] →
      Net t c (.ack h) [.dbg (.header h)]
  | hdrTaken {h} : c.hdrIn = [] → c.ctlIn = [] → c.replyDue = false → t.acks = [lit "ACK"] → t.replies = [] →
      Net t c (.ack h) [.dbg (.header h), .cli (.header h)]
  | reqSent {m} : c.hdrIn = [] → c.ctlIn = [m] → c.replyDue = false → t.acks = [] → t.replies = [] →
      Net t c (.reply m) [.dbg (.request m)]
  | reqTaken {m} : c.hdrIn = [] → c.ctlIn = [] → c.replyDue = true → t.acks = [] → t.replies = [] →
      Net t c (.reply m) [.dbg (.request m), .took m]
  | reqAnswered {m r} : c.hdrIn = [] → c.ctlIn = [] → c.replyDue = false → t.acks = [] → t.replies = [r] →
      Net t c (.reply m) [.dbg (.request m), .took m, .cli (.reply r)]

theorem Net.arrived {t : Dbg.State τ} {c : Dap σ} {ph : Ph} {part : List LinkEv} (h : Net t c ph part) : Arrived ph t := by
  cases h with
  | idle _ _ _ h1 h2 => exact ⟨h1, h2⟩
  | hdrSent _ _ _ h1 h2 => exact ⟨h2, .inl h1⟩
  | hdrTaken _ _ _ h1 h2 => exact ⟨h2, .inr h1⟩
  | reqSent _ _ _ h1 h2 => exact ⟨h1, .inl h2⟩
  | reqTaken _ _ _ h1 h2 => exact ⟨h1, .inl h2⟩
  | reqAnswered _ _ _ h1 h2 => exact ⟨h1, .inr ⟨_, h2⟩⟩

theorem Net.congr {t t' : Dbg.State τ} {c c' : Dap σ} {ph : Ph} {part : List LinkEv} (h : Net t c ph part)
    (h1 : c'.hdrIn = c.hdrIn) (h2 : c'.ctlIn = c.ctlIn) (h3 : c'.replyDue = c.replyDue) (h4 : t'.acks = t.acks)
    (h5 : t'.replies = t.replies) : Net t' c' ph part := by
  cases h with
  | idle a b c d e => exact .idle (h1.trans a) (h2.trans b) (h3.trans c) (h4.trans d) (h5.trans e)
  | hdrSent a b c d e => exact .hdrSent (h1.trans a) (h2.trans b) (h3.trans c) (h4.trans d) (h5.trans e)
  | hdrTaken a b c d e => exact .hdrTaken (h1.trans a) (h2.trans b) (h3.trans c) (h4.trans d) (h5.trans e)
  | reqSent a b c d e => exact .reqSent (h1.trans a) (h2.trans b) (h3.trans c) (h4.trans d) (h5.trans e)
  | reqTaken a b c d e => exact .reqTaken (h1.trans a) (h2.trans b) (h3.trans c) (h4.trans d) (h5.trans e)
  | reqAnswered a b c d e => exact .reqAnswered (h1.trans a) (h2.trans b) (h3.trans c) (h4.trans d) (h5.trans e)

/-! ## The debugger's side -/

/-- The header is this one. -/
def HeaderIs (J : Codec) (header : Json) (h : Str) : Prop := J.dump .strict header = some h

/-- What has been sent so far for the request in hand: headers as they should be, and one of them before any request. -/
structure Trace (H : Str → Prop) (g : Req) : Prop where
  headers : ∀ h, Round.header h ∈ g.tr → H h
  pending : ∀ h, g.ph = .ack h → H h
  requests : ∀ pre m r post, g.tr = pre ++ .request m r :: post → Headed pre
  waiting : ∀ m, g.ph = .reply m → Headed g.tr
  inner : ∀ x ∈ g.tr, (∀ hd m, x ≠ .call hd m) ∧ ∀ r, x ≠ .ret r

theorem trace_init (H : Str → Prop) (b : Bool) : Trace H ⟨b, .idle, []⟩ :=
  ⟨fun _ h => (by simp at h), fun _ h => (by cases h), fun pre m r post h => (by simp at h), fun _ h => (by cases h), fun _ h => (by simp at h)⟩

theorem Trace.snoc {H : Str → Prop} {tr : List Round} {x : Round} {b b' : Bool} {ph : Ph} (h : Trace H ⟨b, ph, tr⟩)
    (hh : ∀ y, x = .header y → H y) (hr : ∀ m r, x = .request m r → Headed tr) (hx : (∀ hd m, x ≠ .call hd m) ∧ ∀ r, x ≠ .ret r) :
    Trace H ⟨b', .idle, tr ++ [x]⟩ := by
  refine ⟨fun y hy => ?_, fun _ h => (by cases h), fun pre m r post he => ?_, fun _ h => (by cases h), fun y hy => ?_⟩
  · rcases List.mem_append.1 hy with hy | hy
    · exact h.headers y hy
    · exact hh y (List.mem_singleton.1 hy).symm
  · rcases List.eq_nil_or_concat post with rfl | ⟨post', z, rfl⟩
    · have := List.append_inj' he rfl
      rw [← this.1]
      exact hr m r (by simpa using this.2)
    · rw [List.concat_eq_append] at he
      have he' : tr ++ [x] = (pre ++ .request m r :: post') ++ [z] := by simpa using he
      exact h.requests pre m r post' (List.append_inj' he' rfl).1
  · rcases List.mem_append.1 hy with hy | hy
    · exact h.inner y hy
    · rw [List.mem_singleton.1 hy]; exact hx

theorem trace_step {H : Str → Prop} {t t' : Dbg.State τ} {g g' : Req} (h : Trace H g) (hm : RMv H g t t' g') : Trace H g' := by
  cases hm with
  | quiet hp hb h1 h2 h3 => exact ⟨h.headers, fun _ h => (by cases h), h.requests, fun _ h => (by cases h), h.inner⟩
  | start hp hb h1 h2 h3 => exact h.snoc (fun _ h => (by cases h)) (fun _ _ h => (by cases h)) ⟨fun _ _ h => (by cases h), fun _ h => (by cases h)⟩
  | stop hp hb h1 h2 h3 => exact h.snoc (fun _ h => (by cases h)) (fun _ _ h => (by cases h)) ⟨fun _ _ h => (by cases h), fun _ h => (by cases h)⟩
  | header hH hp hb h1 h2 h3 => exact ⟨h.headers, fun y hy => (by cases hy; exact hH), h.requests, fun _ h => (by cases h), h.inner⟩
  | request hH hp hb h1 h2 h3 => exact ⟨h.headers, fun _ h => (by cases h), h.requests, fun _ _ => hH, h.inner⟩
  | acked hp hb h1 h2 h3 =>
    exact h.snoc (fun y hy => by cases hy; exact h.pending _ hp) (fun _ _ h => (by cases h)) ⟨fun _ _ h => (by cases h), fun _ h => (by cases h)⟩
  | answered hp hb h1 h2 h3 =>
    exact h.snoc (fun y hy => (by cases hy)) (fun _ _ _ => h.waiting _ hp) ⟨fun _ _ h => (by cases h), fun _ h => (by cases h)⟩

/-- The requests processed so far: their rounds and whether the debugger is started then. -/
inductive Calls (d : Dbg.Debugger τ) : List Round → Bool → Prop
  | nil : Calls d [] false
  | call {rounds b header m g r} : Calls d rounds b → Good d header m b g r → Trace (HeaderIs d.J header) g →
      Calls d (rounds ++ (.call header m :: (g.tr ++ [.ret r]))) g.started

/-- Where the control thread is. -/
inductive Control (d : Dbg.Debugger τ) (s : Link τ σ) : Prop
  | free (rounds : List Round) : s.ctl = none → Calls d rounds s.dbg.started → exchanged s.log = happens rounds →
      Net s.dbg s.dap .idle [] → Control d s
  | busy (rounds : List Round) (b : Bool) (header m : Json) (g : Req) (part : List LinkEv) (p : K (Dbg.State τ) Json) :
      s.ctl = some p → Calls d rounds b → RWp (HeaderIs d.J header) (Good d header m b) p g → Trace (HeaderIs d.J header) g → s.dbg.started = g.started →
      exchanged s.log = happens (rounds ++ .call header m :: g.tr) ++ part → Net s.dbg s.dap g.ph part → Control d s

/-- Where the client is. -/
def Client' (cl : Client σ) (s : Link τ σ) : Prop :=
  match s.pc with
  | .io p | .msg p => ∃ pend, CWp cl Done p ⟨s.dap.parentHeader, pend⟩ ∧ Verb s.log pend
  | .failed _ => ∃ pend, Verb s.log pend
  | _ => Verb s.log none

structure Inv (d : Dbg.Debugger τ) (cl : Client σ) (s : Link τ σ) : Prop where
  control : Control d s
  client : Client' cl s
  parent : s.dap.parentHeader = lastHdr s.log
  attr : Attr cl.env.J s.log

/-! ## Steps of the debugger -/

/-- What a step of the debugger did. -/
inductive DbgDid (t t' : Dbg.State τ) : List LinkEv → List Str → List Str → Prop
  | mk {acks answers outs} : t.acks = acks ++ t'.acks → t.replies = answers ++ t'.replies → t'.out = t.out ++ outs →
      DbgDid t t' (acks.map .acked ++ answers.map .answered ++ outs.map .dbg) (headersOf outs) (requestsOf outs)

theorem take_sub {α : Type} (a b : List α) : (a ++ b).take ((a ++ b).length - b.length) = a := by
  rw [List.length_append, Nat.add_sub_cancel, List.take_left']
  rfl

theorem dbgDid_entries {t t' : Dbg.State τ} {es : List LinkEv} {hs rs : List Str} (h : DbgDid t t' es hs rs) (c : Dap σ) :
    dbgEntries t t' = es ∧ toDap t t' c = { c with hdrIn := c.hdrIn ++ hs, ctlIn := c.ctlIn ++ rs } := by
  cases h with
  | mk h1 h2 h3 =>
    constructor
    · unfold dbgEntries
      rw [h1, h2, h3, take_sub, take_sub, List.drop_left']
      rfl
    · unfold toDap
      rw [h3, List.drop_left' rfl]

theorem clientLog_dbg (es : List LinkEv) (h : ∀ e ∈ es, (∃ a, e = .acked a) ∨ (∃ a, e = .answered a) ∨ ∃ a, e = .dbg a) :
    clientLog es = [] ∧ exchanged es = es ∧ (∀ e ∈ es, ∀ x, e ≠ .cli x) := by
  refine ⟨?_, ?_, ?_⟩
  · simp only [clientLog, List.filter_eq_nil_iff]
    intro e he
    rcases h e he with ⟨a, rfl⟩ | ⟨a, rfl⟩ | ⟨a, rfl⟩ <;> simp
  · simp only [exchanged, List.filter_eq_self]
    intro e he
    rcases h e he with ⟨a, rfl⟩ | ⟨a, rfl⟩ | ⟨a, rfl⟩ <;> rfl
  · intro e he x
    rcases h e he with ⟨a, rfl⟩ | ⟨a, rfl⟩ | ⟨a, rfl⟩ <;> simp

theorem dbgDid_kind {t t' : Dbg.State τ} {es : List LinkEv} {hs rs : List Str} (h : DbgDid t t' es hs rs) :
    ∀ e ∈ es, (∃ a, e = .acked a) ∨ (∃ a, e = .answered a) ∨ ∃ a, e = .dbg a := by
  cases h with
  | mk _ _ _ =>
    intro e he
    simp only [List.mem_append, List.mem_map] at he
    rcases he with (⟨a, _, rfl⟩ | ⟨a, _, rfl⟩) | ⟨a, _, rfl⟩
    · exact .inl ⟨a, rfl⟩
    · exact .inr (.inl ⟨a, rfl⟩)
    · exact .inr (.inr ⟨a, rfl⟩)

/-- A step of the debugger moves the sockets on. -/
theorem net_dbg {t t' : Dbg.State τ} {c : Dap σ} {H : Str → Prop} {g g' : Req} {part : List LinkEv} (hn : Net t c g.ph part) (hm : RMv H g t t' g') :
    ∃ es hs rs part', DbgDid t t' es hs rs ∧ t'.started = g'.started ∧
      happens g'.tr ++ part' = happens g.tr ++ part ++ es ∧
      Net t' { c with hdrIn := c.hdrIn ++ hs, ctlIn := c.ctlIn ++ rs } g'.ph part' := by
  cases hm with
  | quiet hp hb h1 h2 h3 =>
    rw [hp] at hn
    cases hn with
    | idle a b c d e =>
      refine ⟨_, _, _, [], .mk (acks := []) (answers := []) (outs := []) h1.symm h2.symm (by simp [h3]), hb, by simp, ?_⟩
      exact .idle (by simpa [headersOf] using a) (by simpa [requestsOf] using b) c (h1.trans d) (h2.trans e)
  | @start b' hp hb h1 h2 h3 =>
    rw [hp] at hn
    cases hn with
    | idle a b c d e =>
      refine ⟨_, _, _, [], .mk (acks := []) (answers := []) h1.symm h2.symm h3, hb, ?_, ?_⟩
      · simp [happens, Round.events]
      · exact .idle (by simpa [headersOf] using a) (by simpa [requestsOf] using b) c (h1.trans d) (h2.trans e)
  | stop hp hb h1 h2 h3 =>
    rw [hp] at hn
    cases hn with
    | idle a b c d e =>
      refine ⟨_, _, _, [], .mk (acks := []) (answers := []) h1.symm h2.symm h3, hb, ?_, ?_⟩
      · simp [happens, Round.events]
      · exact .idle (by simpa [headersOf] using a) (by simpa [requestsOf] using b) c (h1.trans d) (h2.trans e)
  | @header b' h hH hp hb h1 h2 h3 =>
    rw [hp] at hn
    cases hn with
    | idle a b c d e =>
      refine ⟨_, _, _, _, .mk (acks := []) (answers := []) h1.symm h2.symm h3, hb, ?_,
        .hdrSent (h := h) (by simp [a, headersOf]) (by simpa [requestsOf] using b) c (h1.trans d) (h2.trans e)⟩
      simp
  | @request b' m hH hp hb h1 h2 h3 =>
    rw [hp] at hn
    cases hn with
    | idle a b c d e =>
      refine ⟨_, _, _, _, .mk (acks := []) (answers := []) h1.symm h2.symm h3, hb, ?_,
        .reqSent (m := m) (by simpa [headersOf] using a) (by simp [b, requestsOf]) c (h1.trans d) (h2.trans e)⟩
      simp
  | @acked b' h hp hb h1 h2 h3 =>
    rw [hp] at hn
    cases hn with
    | hdrSent a b c d e => rw [d] at h1; cases h1
    | hdrTaken a b c d e =>
      rw [d] at h1
      have h1' : t'.acks = [] := by simpa using h1.symm
      refine ⟨_, _, _, [], .mk (acks := [lit "ACK"]) (answers := []) (outs := []) (by rw [d, h1']; rfl) h2.symm (by simp [h3]), hb, ?_, ?_⟩
      · simp [happens, Round.events]
      · exact .idle (by simpa [headersOf] using a) (by simpa [requestsOf] using b) c h1' (h2.trans e)
  | @answered b' m r hp hb h1 h2 h3 =>
    rw [hp] at hn
    cases hn with
    | reqSent a b c d e => rw [e] at h2; cases h2
    | reqTaken a b c d e => rw [e] at h2; cases h2
    | @reqAnswered _ r' a b c d e =>
      rw [e] at h2
      obtain ⟨rfl, h2'⟩ : r' = r ∧ t'.replies = [] := by
        simp only [List.cons.injEq] at h2
        exact ⟨h2.1, h2.2.symm⟩
      refine ⟨_, _, _, [], .mk (acks := []) (answers := [r']) (outs := []) h1.symm (by rw [e, h2']; rfl) (by simp [h3]), hb, ?_, ?_⟩
      · simp [happens, Round.events]
      · exact .idle (by simpa [headersOf] using a) (by simpa [requestsOf] using b) c (h1.trans d) h2'

/-! ## Steps of the client -/

/-- What a step of the client did. -/
inductive DapDid (c c' : Dap σ) : List LinkEv → List Str → List Str → Prop
  | mk {took outs} : c.ctlIn = took ++ c'.ctlIn → c'.out = c.out ++ outs →
      DapDid c c' (took.map .took ++ outs.map .cli) (acksOf outs) (repliesOf outs)

theorem dapDid_entries {c c' : Dap σ} {es : List LinkEv} {as rs : List Str} (h : DapDid c c' es as rs) (t : Dbg.State τ) :
    dapEntries c c' = es ∧ toDbg c c' t = { t with acks := t.acks ++ as, replies := t.replies ++ rs } := by
  cases h with
  | mk h1 h2 =>
    constructor
    · unfold dapEntries
      rw [h1, h2, take_sub, List.drop_left']
      rfl
    · unfold toDbg
      rw [h2, List.drop_left' rfl]

/-- A step of the client moves the sockets on, whatever the debugger waits for. -/
theorem net_dap {t : Dbg.State τ} {c c' : Dap σ} {ph : Ph} {part : List LinkEv} {g g' : Cli} {log : List LinkEv}
    (hn : Net t c ph part) (hm : CMv cl g c c' g') (hg : g.h = c.parentHeader) (hl : c.parentHeader = lastHdr log)
    (ha : Attr cl.env.J log) (hv : Verb log g.pend) :
    ∃ es as rs part', DapDid c c' es as rs ∧ part' = part ++ exchanged es ∧
      Net { t with acks := t.acks ++ as, replies := t.replies ++ rs } c' ph part' ∧ g'.h = c'.parentHeader ∧
      c'.parentHeader = lastHdr (log ++ es) ∧ Attr cl.env.J (log ++ es) ∧ Verb (log ++ es) g'.pend := by
  cases hm with
  | own ext h1 h2 h3 h4 h5 h6 h7 =>
    have hx := acksOf_own h6
    have hnh : ∀ e ∈ List.map LinkEv.took [] ++ ext.map LinkEv.cli, ∀ x, e ≠ .cli (.header x) := by
      intro e he x hex
      simp only [List.map_nil, List.nil_append, List.mem_map] at he
      obtain ⟨y, hy, rfl⟩ := he
      cases hex
      exact (h6 _ hy).1
    refine ⟨_, _, _, _, .mk (took := []) h3.symm h5, rfl, ?_, hg.trans h1.symm, ?_, ?_, ?_⟩
    · have : exchanged (List.map LinkEv.took [] ++ ext.map LinkEv.cli) = [] := exchanged_own h6
      rw [this, List.append_nil]
      exact hn.congr h2 h3 h4 (by simp [hx.1]) (by simp [hx.2])
    · rw [lastHdr_skip hnh]; exact h1.trans hl
    · refine attr_append ha hnh fun e he m w hem => ?_
      simp only [List.map_nil, List.nil_append, List.mem_map] at he
      obtain ⟨y, hy, rfl⟩ := he
      cases hem
      rw [← hl, ← hg]
      exact (h6 _ hy).2 m w rfl
    · generalize g.pend = q at h7 hv
      cases h7 with
      | none => exact verb_none hv
      | keep => exact verb_quiet hv rfl
      | sent => exact verb_snoc hv rfl (.inr ⟨_, rfl, rfl⟩) fun m hm => by cases hm
  | header x h0 h1 h2 h3 h4 h5 =>
    have hes : (List.map LinkEv.took [] ++ [DapEv.header x].map LinkEv.cli) = [.cli (.header x)] := rfl
    refine ⟨_, _, _, _, .mk (took := []) h3.symm h5, rfl, ?_, h1.symm, ?_, ?_, ?_⟩
    · cases hn with
      | hdrSent a b c d e =>
        rw [a] at h2
        obtain ⟨rfl, h2'⟩ : _ = x ∧ c'.hdrIn = [] := by
          simp only [List.cons.injEq] at h2
          exact ⟨h2.1, h2.2.symm⟩
        exact .hdrTaken h2' (h3.trans b) (h4.trans c) (by simp [d, acksOf]) (by simpa [repliesOf] using e)
      | idle a b c d e => rw [a] at h2; cases h2
      | hdrTaken a b c d e => rw [a] at h2; cases h2
      | reqSent a b c d e => rw [a] at h2; cases h2
      | reqTaken a b c d e => rw [a] at h2; cases h2
      | reqAnswered a b c d e => rw [a] at h2; cases h2
    · rw [hes, lastHdr_header]; exact h1
    · rw [hes]; exact attr_snoc ha fun m w h => by cases h
    · rw [hes]; exact verb_snoc hv rfl (.inl h0) fun m hm => by cases hm
  | recv m h0 h1 h2 h3 h4 h5 h6 =>
    have hes : (List.map LinkEv.took [m] ++ ([] : List DapEv).map LinkEv.cli) = [.took m] := rfl
    refine ⟨_, _, _, _, .mk (took := [m]) (outs := []) h3 (by simp [h6]), rfl, ?_, hg.trans h1.symm, ?_, ?_, ?_⟩
    · cases hn with
      | reqSent a b c d e =>
        rw [b] at h3
        obtain ⟨rfl, h3'⟩ : _ = m ∧ c'.ctlIn = [] := by
          simp only [List.cons.injEq] at h3
          exact ⟨h3.1, h3.2.symm⟩
        exact .reqTaken (h2.trans a) h3' h5 (by simpa [acksOf] using d) (by simpa [repliesOf] using e)
      | idle a b c d e => rw [b] at h3; cases h3
      | hdrSent a b c d e => rw [b] at h3; cases h3
      | hdrTaken a b c d e => rw [b] at h3; cases h3
      | reqTaken a b c d e => rw [b] at h3; cases h3
      | reqAnswered a b c d e => rw [b] at h3; cases h3
    · rw [hes, lastHdr_skip fun e he x => by rw [List.mem_singleton.1 he]; simp]; exact h1.trans hl
    · rw [hes]; exact attr_snoc ha fun m w h => by cases h
    · rw [hes]; exact verb_snoc hv rfl (.inl h0) fun m hm => by cases hm; rfl
  | send b h0 h1 h2 h3 h4 h5 h6 =>
    have hes : (List.map LinkEv.took [] ++ [DapEv.reply b].map LinkEv.cli) = [.cli (.reply b)] := rfl
    refine ⟨_, _, _, _, .mk (took := []) h3.symm h6, rfl, ?_, hg.trans h1.symm, ?_, ?_, ?_⟩
    · cases hn with
      | reqTaken a b' c d e =>
        exact .reqAnswered (h2.trans a) (h3.trans b') h5 (by simpa [acksOf] using d) (by simp [e, repliesOf])
      | idle a b c d e => rw [c] at h4; cases h4
      | hdrSent a b c d e => rw [c] at h4; cases h4
      | hdrTaken a b c d e => rw [c] at h4; cases h4
      | reqSent a b c d e => rw [c] at h4; cases h4
      | reqAnswered a b c d e => rw [c] at h4; cases h4
    · rw [hes, lastHdr_skip fun e he x => by rw [List.mem_singleton.1 he]; simp]; exact h1.trans hl
    · rw [hes]; exact attr_snoc ha fun m w h => by cases h
    · rw [hes]; exact verb_snoc hv rfl (.inl h0) fun m hm => by cases hm

end Xeus.Link
