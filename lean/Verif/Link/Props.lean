import Verif.Link.Logs
import Verif.Link.Sample

/-!
# The debugger and the debug adapter client together: properties C84, C85 and C86

The control thread and the thread of the client run interleaved in any way, the frontend sends any requests, and the adapter
sends any bytes at any time.
-/

namespace Xeus.Link

open Xeus Xeus.Spec K Link.Spec

variable {τ σ : Type} {d : Dbg.Debugger τ} {cl : Client σ} {u : τ} {files : Str → Option Str} {v : σ} {s : Link τ σ}

/-! ## C84 -/

/-- **C84**.  Headers and requests alternate strictly with their acknowledgments and answers: everything that passes between
the two threads is a sequence of complete rounds, of which only the last may be under way. -/
theorem C84_rounds (hd : Dbg.Spec.Local d) (h : Reach d cl u files v s) : InRounds s.log := by
  obtain ⟨rounds, b, tail, _, h1, h2⟩ := (inv_reach hd h).record
  rcases h2 with rfl | ⟨header, m, g, part, rfl, _, hn⟩
  · exact ⟨rounds, [], .stop, h1, List.nil_prefix, by simp [Round.events]⟩
  · refine ⟨rounds ++ .call header m :: g.tr, part, ?_⟩
    have h1' : exchanged s.log = happens (rounds ++ .call header m :: g.tr) ++ part := by
      rw [h1, happens_append]; simp [happens, Round.events]
    generalize g.ph = ph at hn
    cases hn with
    | idle => exact ⟨.stop, h1', List.nil_prefix, by simp [Round.events]⟩
    | @hdrSent x => exact ⟨.header x, h1', ⟨_, rfl⟩, by simp [Round.events]⟩
    | @hdrTaken x => exact ⟨.header x, h1', ⟨_, rfl⟩, by simp [Round.events]⟩
    | @reqSent m => exact ⟨.request m [], h1', ⟨_, rfl⟩, by simp [Round.events]⟩
    | @reqTaken m => exact ⟨.request m [], h1', ⟨_, rfl⟩, by simp [Round.events]⟩
    | @reqAnswered m r => exact ⟨.request m r, h1', ⟨_, rfl⟩, by simp [Round.events]⟩

theorem found (hd : Dbg.Spec.Local d) (h : Reach d cl u files v s) {pre mid post : List LinkEv} {header m : Json} {r : Res Json}
    (hl : s.log = pre ++ .call header m :: (mid ++ .ret r :: post)) (hm : NoCall mid) :
    ∃ b g, running pre = b ∧ exchanged mid = happens g.tr ∧ Good d header m b g r := by
  obtain ⟨rounds, b, tail, hc, h1, h2⟩ := (inv_reach hd h).record
  rw [hl, exchanged_append, exchanged_call, exchanged_append, exchanged_ret] at h1
  have key : ∃ C, happens rounds = exchanged pre ++ .call header m :: (exchanged mid ++ .ret r :: C) := by
    rcases h2 with rfl | ⟨header', m', g, part, rfl, ht, hn⟩
    · exact ⟨_, by rw [List.append_nil] at h1; exact h1.symm⟩
    · have hin : Inner (happens g.tr ++ part) := (inner_happens ht.inner).append (inner_part hn)
      rcases last_call hin h1.symm with ⟨X, k1, k2⟩ | ⟨k1, k2, k3, k4⟩
      · rcases split_at k2.symm with ⟨Y, j1, j2⟩ | ⟨Y, j1, j2⟩
        · exact ⟨Y, by rw [k1, j1]⟩
        · cases Y with
          | nil => simp at j2
          | cons y Y =>
            simp only [List.cons_append, List.cons.injEq] at j2
            exact absurd (by rw [j1, ← j2.1]; simp) (noCall_exchanged hm header' m')
      · exact absurd rfl ((hin (.ret r) (by rw [← k4]; simp)).2 r)
  obtain ⟨C, hC⟩ := key
  obtain ⟨rounds₁, b₁, g, k1, k2, k3, k4⟩ := find_call hc hC (noCall_exchanged hm)
  refine ⟨b₁, g, ?_, k3, k4⟩
  rw [← running_exchanged, k2]
  have := running_happens rounds₁ false [] rfl
  rw [List.nil_append] at this
  rw [this, calls_after k1]

/-- **C84**.  What passes between the threads while a request of the frontend is processed: if anything is sent to the adapter,
the header of this request goes before it, exactly once, and has been acknowledged by then; the requests sent are well formed;
each has been answered before the next is sent and before the processing ends. -/
theorem C84_call (hd : Dbg.Spec.Local d) (h : Reach d cl u files v s) {pre mid post : List LinkEv} {header m : Json} {r : Res Json}
    (hl : s.log = pre ++ .call header m :: (mid ++ .ret r :: post)) (hm : NoCall mid) :
    ∃ rounds, exchanged mid = happens rounds ∧ CallRounds d.J header rounds := by
  obtain ⟨b, g, _, h1, h2⟩ := found hd h hl hm
  exact ⟨g.tr, h1, h2.shape⟩

/-- **C84**.  While the debugger is started, a request without a handler in the kernel takes exactly this course: its header, then
its own text, each of them to the client and back; what the client sent back is the answer. -/
theorem C84_forwarded (hd : Dbg.Spec.Local d) (h : Reach d cl u files v s) {pre mid post : List LinkEv} {header m j : Json} {name : Str}
    (hl : s.log = pre ++ .call header m :: (mid ++ .ret (.ok j) :: post)) (hm : NoCall mid) (hr : running pre = true)
    (hc : m.cidx (lit "command") = .ok (.str name)) (hi : name ≠ lit "initialize") (hdis : name ≠ lit "disconnect")
    (hh : ∀ b, d.requestHandler b name = none) :
    ∃ hdr text answer, d.J.dump .strict header = some hdr ∧ d.J.dump .strict m = some text ∧ d.J.parse answer = some j ∧
      exchanged mid = [.dbg (.header hdr), .cli (.header hdr), .acked (lit "ACK"),
        .dbg (.request (dapFrame text)), .took (dapFrame text), .cli (.reply answer), .answered answer] := by
  obtain ⟨b, g, h1, h2, h3⟩ := found hd h hl hm
  obtain ⟨hdr, text, answer, k1, k2, k3, k4⟩ := h3.forwarded ⟨name, hc, hi, hdis, hh false, hh true⟩ (h1.symm.trans hr) j rfl
  refine ⟨hdr, text, answer, k1, k2, k4, ?_⟩
  rw [h2, k3]
  rfl

/-- **C84**.  Each request goes to the adapter as the debugger sent it, before the client does anything else. -/
theorem C84_passed_on (hd : Dbg.Spec.Local d) (h : Reach d cl u files v s) : PassedOn s.log := by
  have hc := (inv_reach hd h).client
  unfold Client' at hc
  split at hc
  · obtain ⟨_, _, hv⟩ := hc; exact hv.1
  · obtain ⟨_, _, hv⟩ := hc; exact hv.1
  · obtain ⟨_, hv⟩ := hc; exact hv.1
  · exact hc.1

section Examples
open Sample Dbg.Sample

/-- Two requests of the frontend and an event of the adapter: 26 entries, 19 of which belong to rounds. -/
example : ∃ s, Reach debugger client 0 noFiles 0 s ∧ InRounds s.log ∧ PassedOn s.log ∧ s.log.length = 26 ∧
    (exchanged s.log).length = 19 := by
  obtain ⟨s, h, hl⟩ := session_reach
  exact ⟨s, h, C84_rounds debugger_local h, C84_passed_on debugger_local h, by rw [hl]; decide +kernel, by rw [hl]; decide +kernel⟩

/-- The first request starts the debugger; then its header and itself go to the client. -/
example : ∃ s mid post j, Reach debugger client 0 noFiles 0 s ∧
    s.log = .call firstHeader (request "initialize" .null) :: (mid ++ .ret (.ok j) :: post) ∧ NoCall mid ∧
    (∃ rounds, exchanged mid = happens rounds ∧ CallRounds stdCodec firstHeader rounds) ∧
    exchanged mid = happens [.start true, .header (printJson firstHeader),
      .request (dapFrame (printJson (request "initialize" .null))) (printJson (response "initialize"))] := by
  obtain ⟨s, h, hl⟩ := session_reach
  have hlog : sessionLog = .call firstHeader (request "initialize" .null) ::
      ((sessionLog.drop 1).take 10 ++ .ret (.ok (response "initialize")) :: sessionLog.drop 12) := by decide +kernel
  have hn : NoCall ((sessionLog.drop 1).take 10) := noCall_of (by decide +kernel)
  exact ⟨s, _, _, _, h, hl.trans hlog, hn, C84_call debugger_local (pre := []) h (hl.trans hlog) hn, by decide +kernel⟩

/-- The second one meets a debugger that is started. -/
example : ∃ s pre mid post j, Reach debugger client 0 noFiles 0 s ∧
    s.log = pre ++ .call secondHeader (request "threads" .null) :: (mid ++ .ret (.ok j) :: post) ∧ NoCall mid ∧ running pre = true ∧
    ∃ hdr text answer, stdCodec.dump .strict secondHeader = some hdr ∧ stdCodec.dump .strict (request "threads" .null) = some text ∧
      stdCodec.parse answer = some j ∧
      exchanged mid = [.dbg (.header hdr), .cli (.header hdr), .acked (lit "ACK"),
        .dbg (.request (dapFrame text)), .took (dapFrame text), .cli (.reply answer), .answered answer] := by
  obtain ⟨s, h, hl⟩ := session_reach
  have hlog : sessionLog = sessionLog.take 12 ++ .call secondHeader (request "threads" .null) ::
      ((sessionLog.drop 13).take 12 ++ .ret (.ok (response "threads")) :: []) := by decide +kernel
  have hn : NoCall ((sessionLog.drop 13).take 12) := noCall_of (by decide +kernel)
  have hr : running (sessionLog.take 12) = true := by decide +kernel
  refine ⟨s, _, _, _, _, h, hl.trans hlog, hn, hr, ?_⟩
  exact C84_forwarded debugger_local h (name := lit "threads") (hl.trans hlog) hn hr (by decide +kernel) (by decide +kernel)
    (by decide +kernel) (by decide +kernel)

end Examples

/-! ## C85 -/

/-- **C85**.  An event published after the header of a request has been acknowledged, or after a request has been sent to the
adapter on its behalf, and before the next request begins to be processed, has the header of that request as its parent. -/
theorem C85_attribution (hd : Dbg.Spec.Local d) (hJ : cl.env.J = d.J) (hK : LawfulCodec d.J) (hE : d.J.parse [] = none)
    (h : Reach d cl u files v s) {pre mid₁ mid₂ post : List LinkEv} {e : LinkEv} {header m : Json} {pm : PubMessage} {w : Multipart}
    (hh : header.canon = true)
    (hl : s.log = pre ++ .call header m :: (mid₁ ++ e :: mid₂) ++ .cli (.pub pm w) :: post) (h1 : NoCall mid₁) (h2 : NoCall mid₂)
    (he : (∃ a, e = .acked a) ∨ (∃ q, e = .dbg (.request q))) : pm.body.parent = header := by
  have hinv := inv_reach hd h
  have hattr := hinv.attr _ pm w post hl
  obtain ⟨rounds, b, tail, hc, h3, h4⟩ := hinv.record
  have hee : ∀ l, exchanged (e :: l) = e :: exchanged l := by
    intro l
    rcases he with ⟨a, rfl⟩ | ⟨q, rfl⟩ <;> rfl
  have hne : ∀ a b, e ≠ .call a b := by
    intro a b hx
    rcases he with ⟨a, rfl⟩ | ⟨q, rfl⟩ <;> cases hx
  have hB : NoCall (exchanged mid₁ ++ e :: exchanged mid₂) := by
    intro a b hx
    rcases List.mem_append.1 hx with hx | hx
    · exact noCall_exchanged h1 a b hx
    · rcases List.mem_cons.1 hx with hx | hx
      · exact hne a b hx.symm
      · exact noCall_exchanged h2 a b hx
  rw [hl, exchanged_append, exchanged_append, exchanged_call, exchanged_append, hee] at h3
  generalize hC : exchanged (.cli (.pub pm w) :: post) = C at h3
  have h3' : exchanged pre ++ .call header m :: ((exchanged mid₁ ++ e :: exchanged mid₂) ++ C) = happens rounds ++ tail := by
    rw [← h3]; simp
  have key : ∃ L C', Since (HeaderIs d.J header) L ∧ L = (exchanged mid₁ ++ e :: exchanged mid₂) ++ C' := by
    rcases h4 with rfl | ⟨header', m', g, part, rfl, ht, hn⟩
    · rw [List.append_nil] at h3'
      exact since_call hc h3'.symm hB
    · have hin : Inner (happens g.tr ++ part) := (inner_happens ht.inner).append (inner_part hn)
      rcases last_call hin h3'.symm with ⟨X, k1, k2⟩ | ⟨k1, k2, k3, k4⟩
      · rcases List.append_eq_append_iff.1 k2 with ⟨Y, j1, j2⟩ | ⟨Y, j1, j2⟩
        · exact since_call hc (C := Y) (by rw [k1, j1]) hB
        · cases Y with
          | nil => exact since_call hc (A := exchanged pre) (m := m) (C := []) (by rw [k1]; simpa using j1.symm) hB
          | cons y Y =>
            simp only [List.cons_append, List.cons.injEq] at j2
            exact absurd (by rw [j1, ← j2.1]; simp) (hB header' m')
      · subst k2
        exact ⟨_, C, since_part ht hn, k4.symm⟩
  obtain ⟨L, C', hs, hL⟩ := key
  obtain ⟨x, hx⟩ := hs.first (exchanged mid₁) e (exchanged mid₂ ++ C') (by rw [hL]; simp) he
  have hlast : HeaderIs d.J header (lastHdr (pre ++ .call header m :: (mid₁ ++ e :: mid₂))) := by
    rw [← lastHdr_exchanged, exchanged_append, exchanged_call, exchanged_append, hee]
    have : exchanged pre ++ .call header m :: (exchanged mid₁ ++ e :: exchanged mid₂) =
        (exchanged pre ++ [.call header m]) ++ (exchanged mid₁ ++ e :: exchanged mid₂) := by simp
    rw [this]
    refine lastHdr_since (fun y hy => hs.headers y ?_) ⟨x, List.mem_append_left _ hx⟩
    rw [hL]; exact List.mem_append_left _ hy
  have hu : JsonUtf8 header := by
    refine Classical.byContradiction fun hn => ?_
    have h9 := hK.dump_strict header hn
    rw [HeaderIs, h9] at hlast
    cases hlast
  obtain ⟨y, hy1, hy2⟩ := hK.roundtrip .strict header hh hu
  unfold HeaderIs at hlast
  rw [hlast] at hy1
  cases hy1
  rw [hJ] at hattr
  unfold parentOf at hattr
  split at hattr
  · rename_i h0
    rw [h0, hE] at hy2
    cases hy2
  · rw [hy2] at hattr
    exact (Option.some.inj hattr).symm

section Examples
open Sample Dbg.Sample

/-- The event sent during the second request is attributed to it. -/
example : ∃ s pre mid₁ mid₂ post e pm w, Reach debugger client 0 noFiles 0 s ∧
    s.log = pre ++ .call secondHeader (request "threads" .null) :: (mid₁ ++ e :: mid₂) ++ .cli (.pub pm w) :: post ∧
    (∃ q, e = .dbg (.request q)) ∧ pm.body.content = stoppedEvent ∧ pm.body.parent = secondHeader := by
  obtain ⟨s, h, hl⟩ := session_reach
  have hlog : (match sessionLog.drop 22 with
      | .cli (.pub pm w) :: post => decide (sessionLog = sessionLog.take 12 ++ .call secondHeader (request "threads" .null) ::
        ((sessionLog.drop 13).take 3 ++ .dbg (.request (dapFrame (printJson (request "threads" .null)))) :: (sessionLog.drop 17).take 5) ++
          .cli (.pub pm w) :: post) && decide (pm.body.content = stoppedEvent)
      | _ => false) = true := by decide +kernel
  split at hlog
  · rename_i pm w post _
    simp only [Bool.and_eq_true, decide_eq_true_eq] at hlog
    refine ⟨s, _, _, _, _, _, pm, w, h, hl.trans hlog.1, ⟨_, rfl⟩, hlog.2, ?_⟩
    exact C85_attribution debugger_local rfl stdCodec_lawful (by decide +kernel) h (by decide +kernel) (hl.trans hlog.1)
      (noCall_of (by decide +kernel)) (noCall_of (by decide +kernel)) (.inr ⟨_, rfl⟩)
  · cases hlog

end Examples

/-! ## C86 -/

theorem exchanged_split {log Z : List LinkEv} {e : LinkEv} (h : exchanged log = Z ++ [e]) :
    ∃ pre rest, log = pre ++ e :: rest ∧ exchanged pre = Z ∧ exchanged rest = [] := by
  obtain ⟨l₁, l₂, h1, h2, h3⟩ := List.filter_eq_append_iff.1 h
  obtain ⟨l₃, l₄, h4, h5, h6, h7⟩ := List.filter_eq_cons_iff.1 h3
  refine ⟨l₁ ++ l₃, l₄, by rw [h1, h4]; simp, ?_, h7⟩
  rw [exchanged_append]
  have : exchanged l₃ = [] := List.filter_eq_nil_iff.2 h5
  rw [this, List.append_nil]
  exact h2

/-- **C86**.  The two threads never wait for each other: when the client waits for something to arrive on any of its sockets, then
either nothing has been sent to it that it has not answered, or it has passed the last request of the debugger on to the adapter
as it was and nothing has come back since it last read. -/
theorem C86_blocked (hd : Dbg.Spec.Local d) (h : Reach d cl u files v s) (hp : s.pc = .top)
    (hb : ∀ hdr ctl tcp, ¬ PollOk s.dap hdr ctl tcp) : s.dap.tcpIn = [] ∧ ∃ rounds,
      exchanged s.log = happens rounds ∨
      (∃ x, exchanged s.log = happens rounds ++ [.dbg (.header x), .cli (.header x)] ∧ s.dbg.acks = [lit "ACK"]) ∨
      (∃ m r, exchanged s.log = happens rounds ++ [.dbg (.request m), .took m, .cli (.reply r)] ∧ s.dbg.replies = [r]) ∨
      (∃ m pre mid post, s.log = pre ++ .took m :: (mid ++ .cli (.tcp m) :: post) ∧
        exchanged pre = happens rounds ++ [.dbg (.request m)] ∧ exchanged (mid ++ post) = []) := by
  have hinv := inv_reach hd h
  refine ⟨?_, ?_⟩
  · refine Classical.byContradiction fun ht => hb false false true ⟨rfl, fun h => (by cases h), fun h => (by cases h), fun _ => ht⟩
  · have hhdr : s.dap.hdrIn = [] := by
      refine Classical.byContradiction fun ht => hb true false false ⟨rfl, fun _ => ht, fun h => (by cases h), fun h => (by cases h)⟩
    obtain ⟨rounds, b, tail, _, h1, h2⟩ := hinv.record
    rcases h2 with rfl | ⟨header, m₀, g, part, rfl, _, hn⟩
    · exact ⟨rounds, .inl (by simpa using h1)⟩
    · refine ⟨rounds ++ .call header m₀ :: g.tr, ?_⟩
      have h1' : exchanged s.log = happens (rounds ++ .call header m₀ :: g.tr) ++ part := by
        rw [h1, happens_append]; simp [happens, Round.events]
      generalize g.ph = ph at hn
      cases hn with
      | idle => exact .inl (by simpa using h1')
      | hdrSent a => rw [hhdr] at a; cases a
      | @hdrTaken x _ _ _ d _ => exact .inr (.inl ⟨x, h1', d⟩)
      | reqSent _ b c _ _ =>
        exact absurd ⟨rfl, fun h => (by cases h), fun _ => ⟨by rw [b]; simp, c⟩, fun h => (by cases h)⟩ (hb false true false)
      | @reqAnswered m r _ _ _ _ e => exact .inr (.inr (.inl ⟨m, r, h1', e⟩))
      | @reqTaken m _ _ _ _ _ =>
        refine .inr (.inr (.inr ?_))
        have hcl : Verb s.log none := by
          have := hinv.client
          unfold Client' at this
          rw [hp] at this
          exact this
        obtain ⟨pre, rest, k1, k2, k3⟩ := exchanged_split (Z := happens (rounds ++ .call header m₀ :: g.tr) ++ [.dbg (.request m)])
          (e := .took m) (by rw [h1']; simp)
        have hlog : clientLog s.log = clientLog pre ++ .took m :: clientLog rest := by
          rw [k1, clientLog_append]; rfl
        cases hrest : clientLog rest with
        | nil =>
          rw [hrest] at hlog
          exact absurd (hcl.2 _ _ hlog) (by simp)
        | cons e es =>
          rw [hrest] at hlog
          have he := hcl.1 _ _ _ _ hlog
          subst he
          obtain ⟨l₃, l₄, j1, j2, j3, j4⟩ := List.filter_eq_cons_iff.1 hrest
          refine ⟨m, pre, l₃, l₄, by rw [k1, j1], k2, ?_⟩
          rw [j1, exchanged_append] at k3
          rw [exchanged_append]
          exact k3

section Examples
open Sample Dbg.Sample

/-- The adapter has not answered yet: the client waits, and the request has gone to the adapter. -/
example : ∃ s, Reach debugger client 0 noFiles 0 s ∧ s.pc = .top ∧ (∀ hdr ctl tcp, ¬ PollOk s.dap hdr ctl tcp) ∧
    (exchanged s.log).getLast? = some (.took (dapFrame (printJson (request "initialize" .null)))) ∧ s.dap.tcpIn = [] := by
  have h : (play debugger client begin_ (Sample.session.take 1)).any (fun s => (match s.pc with | .top => true | _ => false) &&
      (s.dap.hdrIn.isEmpty && (s.dap.ctlIn.isEmpty && s.dap.tcpIn.isEmpty)) &&
      decide ((exchanged s.log).getLast? = some (.took (dapFrame (printJson (request "initialize" .null)))))) = true := by
    decide +kernel
  rcases hp : play debugger client begin_ (Sample.session.take 1) with _ | s
  · rw [hp] at h; cases h
  · rw [hp] at h
    simp only [Option.any_some, Bool.and_eq_true, List.isEmpty_iff, decide_eq_true_eq] at h
    obtain ⟨⟨h1, h2, h3, h4⟩, h5⟩ := h
    have hr : Reach debugger client 0 noFiles 0 s := play_reach _ _ .init hp
    have hb : ∀ hdr ctl tcp, ¬ PollOk s.dap hdr ctl tcp := by
      rintro hdr ctl tcp ⟨k1, k2, k3, k4⟩
      cases hdr with
      | true => exact k2 rfl h2
      | false =>
        cases ctl with
        | true => exact (k3 rfl).1 h3
        | false =>
          cases tcp with
          | true => exact k4 rfl h4
          | false => cases k1
    have htop : s.pc = .top := by split at h1 <;> first | assumption | cases h1
    exact ⟨s, hr, htop, hb, h5, (C86_blocked debugger_local hr htop hb).1⟩

end Examples

end Xeus.Link
