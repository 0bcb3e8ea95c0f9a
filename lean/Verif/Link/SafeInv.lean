import Verif.Link.SafeClient
import Verif.Link.Logs

/-!
# The client does not fail: the invariant

No property statements here.
-/

namespace Xeus.Link

open Xeus Xeus.Spec K Link.Spec

variable {τ σ : Type} {d : Dbg.Debugger τ} {cl : Client σ}

/-! ## Counting -/

theorem requested_append (a b : List LinkEv) : requested (a ++ b) = requested a ++ requested b := List.filterMap_append ..
theorem passed_append (a b : List LinkEv) : passed (a ++ b) = passed a ++ passed b := List.filterMap_append ..
theorem replied_append (a b : List LinkEv) : replied (a ++ b) = replied a ++ replied b := List.filterMap_append ..
theorem answers_append (J : Codec) (a b : List DapMsg) : answers J (a ++ b) = answers J a ++ answers J b := by
  simp only [answers, bodies, List.map_append, List.filter_append]
theorem received_append (a b : List LinkEv) : received (a ++ b) = received a ++ received b := by
  simp only [received, List.filterMap_append, List.flatten_append]

theorem sinceStart_append {log es : List LinkEv} (h : LinkEv.dbg (.start true) ∉ es) : sinceStart (log ++ es) = sinceStart log ++ es := by
  unfold sinceStart
  rw [List.reverse_append, List.takeWhile_append_of_pos]
  · simp
  · intro a ha
    simp only [List.mem_reverse] at ha
    have : a ≠ LinkEv.dbg (.start true) := fun hx => h (by rw [← hx]; exact ha)
    simpa using this

theorem sinceStart_start (log : List LinkEv) : sinceStart (log ++ [.dbg (.start true)]) = [] := by
  simp [sinceStart]

/-- Neither receipts nor anything done by the client or the adapter. -/
def Elsewhere (e : LinkEv) : Prop := match e with | .took _ | .sent _ | .cli _ => False | _ => True

theorem elsewhere_counts {es : List LinkEv} (h : ∀ e ∈ es, Elsewhere e) :
    requested es = [] ∧ replied es = [] ∧ passed es = [] ∧ received es = [] := by
  induction es with
  | nil => exact ⟨rfl, rfl, rfl, rfl⟩
  | cons e es ih =>
    obtain ⟨h1, h2, h3, h4⟩ := ih fun x hx => h x (List.mem_cons_of_mem _ hx)
    have he := h e List.mem_cons_self
    cases e <;> first | exact he.elim | exact ⟨h1, h2, h3, h4⟩

/-- What the client and the adapter have done since the launch, against what is known of the client. -/
structure Count (J : Codec) (L : List LinkEv) (tcpIn : List Str) (g : Lv) : Prop where
  took : (requested L).length = (replied L).length + g.due.toNat
  sent : passed L ++ g.pend.toList = requested L
  stream : ∀ ms : List DapMsg, (∀ m ∈ ms, m.Ok) → received L <+: wireOfMsgs ms → ∃ n,
    received L = wireOfMsgs (ms.take n) ++ tcpIn.flatten ∧ answers J (ms.take n) = replied L ++ g.left ∧
    ∀ raw ∈ g.queue, raw ∈ bodies (ms.take n)

/-- What is known of the state of the client itself. -/
structure Now (g : Lv) (s : Dap σ) : Prop where
  due : s.replyDue = g.due
  queue : s.queue = g.queue
  plain : s.waitAttach = false
  hdr : g.hdr = true → s.hdrIn ≠ []
  ctl : g.ctl = true → s.ctlIn ≠ [] ∧ s.replyDue = false
  tcp : g.tcp = true → s.tcpIn ≠ []

theorem Count.elsewhere {J : Codec} {L es : List LinkEv} {tcpIn : List Str} {g : Lv} (h : Count J L tcpIn g)
    (he : ∀ e ∈ es, Elsewhere e) : Count J (L ++ es) tcpIn g := by
  obtain ⟨h1, h2, h3, h4⟩ := elsewhere_counts he
  refine ⟨?_, ?_, ?_⟩
  · rw [requested_append, replied_append, h1, h2, List.append_nil, List.append_nil]; exact h.took
  · rw [passed_append, requested_append, h1, h3, List.append_nil, List.append_nil]; exact h.sent
  · rw [received_append, replied_append, h4, h2, List.append_nil, List.append_nil]; exact h.stream

/-- What remains true when the connection is closed. -/
structure Order (J : Codec) (L : List LinkEv) : Prop where
  sent : passed L = requested L
  answered : ∀ ms : List DapMsg, (∀ m ∈ ms, m.Ok) → received L <+: wireOfMsgs ms → replied L <+: answers J ms

theorem answers_take (J : Codec) (ms : List DapMsg) (n : Nat) : answers J (ms.take n) <+: answers J ms := by
  unfold answers
  have : bodies (ms.take n) <+: bodies ms := by
    unfold bodies
    rw [List.map_take]
    exact List.take_prefix _ _
  exact this.filter _

theorem Count.answered {J : Codec} {L : List LinkEv} {tcpIn : List Str} {g : Lv} (h : Count J L tcpIn g) {ms : List DapMsg}
    (hms : ∀ m ∈ ms, m.Ok) (hp : received L <+: wireOfMsgs ms) : replied L <+: answers J ms := by
  obtain ⟨n, _, k2, _⟩ := h.stream ms hms hp
  have := answers_take J ms n
  rw [k2] at this
  exact (List.prefix_append _ _).trans this

theorem Order.elsewhere {J : Codec} {L es : List LinkEv} (h : Order J L) (he : ∀ e ∈ es, Elsewhere e) : Order J (L ++ es) := by
  obtain ⟨h1, h2, h3, h4⟩ := elsewhere_counts he
  refine ⟨?_, ?_⟩
  · rw [passed_append, requested_append, h1, h3, List.append_nil, List.append_nil]; exact h.sent
  · rw [received_append, replied_append, h4, h2, List.append_nil, List.append_nil]; exact h.answered

theorem Count.arrive {J : Codec} {L : List LinkEv} {tcpIn : List Str} {g : Lv} (h : Count J L tcpIn g) (b : Str) :
    Count J (L ++ [.sent b]) (tcpIn ++ [b]) g := by
  have h1 : received [LinkEv.sent b] = b := by simp [received]
  have h2 : requested (L ++ [LinkEv.sent b]) = requested L := by rw [requested_append]; exact List.append_nil _
  have h3 : replied (L ++ [LinkEv.sent b]) = replied L := by rw [replied_append]; exact List.append_nil _
  have h4 : passed (L ++ [LinkEv.sent b]) = passed L := by rw [passed_append]; exact List.append_nil _
  refine ⟨?_, ?_, fun ms hms hp => ?_⟩
  · rw [h2, h3]; exact h.took
  · rw [h2, h4]; exact h.sent
  · rw [received_append, h1] at hp ⊢
    obtain ⟨n, k1, k2, k3⟩ := h.stream ms hms ((List.prefix_append _ _).trans hp)
    refine ⟨n, ?_, ?_, k3⟩
    · rw [k1]; simp
    · rw [h3]; exact k2

theorem wireOfMsgs_append (a b : List DapMsg) : wireOfMsgs (a ++ b) = wireOfMsgs a ++ wireOfMsgs b := by simp [wireOfMsgs]

/-- What an access did, in terms of the part that matters. -/
theorem entries_core {c c' : Dap σ} {took : List Str} {ext : List DapEv} (h1 : c.ctlIn = took ++ c'.ctlIn) (h2 : c'.out = c.out ++ ext) :
    dapEntries c c' = took.map .took ++ ext.map .cli := by
  unfold dapEntries
  rw [h1, h2, take_sub, List.drop_left' rfl]

theorem aside_counts {ext : List DapEv} (h : ∀ e ∈ ext, Aside e) :
    requested (ext.map .cli) = [] ∧ replied (ext.map .cli) = [] ∧ passed (ext.map .cli) = [] ∧ received (ext.map .cli) = [] := by
  induction ext with
  | nil => exact ⟨rfl, rfl, rfl, rfl⟩
  | cons e ext ih =>
    obtain ⟨h1, h2, h3, h4⟩ := ih fun x hx => h x (List.mem_cons_of_mem _ hx)
    have he := h e List.mem_cons_self
    cases e <;> first | exact he.elim | exact ⟨h1, h2, h3, h4⟩

theorem req_of {L es : List LinkEv} {x : List Str} (h : requested es = x) : requested (L ++ es) = requested L ++ x := by rw [requested_append, h]
theorem rep_of {L es : List LinkEv} {x : List Str} (h : replied es = x) : replied (L ++ es) = replied L ++ x := by rw [replied_append, h]
theorem pas_of {L es : List LinkEv} {x : List Str} (h : passed es = x) : passed (L ++ es) = passed L ++ x := by rw [passed_append, h]
theorem rcv_of {L es : List LinkEv} {x : Str} (h : received es = x) : received (L ++ es) = received L ++ x := by rw [received_append, h]

theorem count_step {J : Codec} {L : List LinkEv} {c c' : Dap σ} {g g' : Lv} (h : Count J L c.tcpIn g) (hn : Now g c)
    (hm : LMv J g c c' g') : Count J (L ++ dapEntries c c') c'.tcpIn g' ∧ Now g' c' ∧ LinkEv.dbg (.start true) ∉ dapEntries c c' := by
  have nostart : ∀ (took : List Str) (ext : List DapEv), LinkEv.dbg (.start true) ∉ took.map LinkEv.took ++ ext.map LinkEv.cli := by
    intro took ext hx
    simp at hx
  cases hm with
  | quiet ext he hc =>
    simp only [core, Core.mk.injEq] at hc
    obtain ⟨h1, h2, h3, h4, h5, h6, h7⟩ := hc
    rw [entries_core (took := []) h2.symm h7]
    obtain ⟨k1, k2, k3, k4⟩ := aside_counts he
    refine ⟨⟨?_, ?_, ?_⟩, ⟨h4.trans hn.due, h6.trans hn.queue, h5.trans hn.plain, ?_, ?_, ?_⟩, nostart _ _⟩
    · simp only [List.map_nil, List.nil_append]; rw [requested_append, replied_append, k1, k2, List.append_nil, List.append_nil]; exact h.took
    · simp only [List.map_nil, List.nil_append]; rw [passed_append, requested_append, k1, k3, List.append_nil, List.append_nil]; exact h.sent
    · simp only [List.map_nil, List.nil_append]; rw [received_append, replied_append, k2, k4, List.append_nil, List.append_nil, h3]; exact h.stream
    · rw [h1]; exact hn.hdr
    · rw [h2, h4]; exact hn.ctl
    · rw [h3]; exact hn.tcp
  | header x r hq hc =>
    simp only [core, Core.mk.injEq] at hc
    obtain ⟨h1, h2, h3, h4, h5, h6, h7⟩ := hc
    rw [entries_core (took := []) h2.symm h7]
    refine ⟨⟨?_, ?_, ?_⟩, ⟨h4.trans hn.due, h6.trans hn.queue, h5.trans hn.plain, fun hx => (by cases hx), ?_, ?_⟩, nostart _ _⟩
    · rw [req_of (x := []) rfl, rep_of (x := []) rfl, List.append_nil, List.append_nil]; exact h.took
    · rw [req_of (x := []) rfl, pas_of (x := []) rfl, List.append_nil, List.append_nil]; exact h.sent
    · rw [rcv_of (x := []) rfl, rep_of (x := []) rfl, List.append_nil, List.append_nil, h3]; exact h.stream
    · rw [h2, h4]; exact hn.ctl
    · rw [h3]; exact hn.tcp
  | recv m r hq hd hp hc =>
    simp only [core, Core.mk.injEq] at hc
    obtain ⟨h1, h2, h3, h4, h5, h6, h7⟩ := hc
    rw [entries_core (took := [m]) (ext := []) (by rw [hq, h2]; rfl) (by simp [h7])]
    refine ⟨⟨?_, ?_, ?_⟩, ⟨h4, h6.trans hn.queue, h5.trans hn.plain, ?_, fun hx => (by cases hx), ?_⟩, nostart _ _⟩
    · rw [req_of (x := [m]) rfl, rep_of (x := []) rfl, List.append_nil, List.length_append]
      have := h.took
      rw [hd] at this
      simp only [Bool.toNat_false] at this
      simp only [List.length_singleton, Bool.toNat_true]
      omega
    · rw [req_of (x := [m]) rfl, pas_of (x := []) rfl, List.append_nil]
      have := h.sent
      rw [hp, Option.toList_none, List.append_nil] at this
      rw [this]; rfl
    · rw [rcv_of (x := []) rfl, rep_of (x := []) rfl, List.append_nil, List.append_nil, h3]; exact h.stream
    · rw [h1]; exact hn.hdr
    · rw [h3]; exact hn.tcp
  | tcp m hp hc =>
    simp only [core, Core.mk.injEq] at hc
    obtain ⟨h1, h2, h3, h4, h5, h6, h7⟩ := hc
    rw [entries_core (took := []) h2.symm h7]
    refine ⟨⟨?_, ?_, ?_⟩, ⟨h4.trans hn.due, h6.trans hn.queue, h5.trans hn.plain, ?_, ?_, ?_⟩, nostart _ _⟩
    · rw [req_of (x := []) rfl, rep_of (x := []) rfl, List.append_nil, List.append_nil]; exact h.took
    · rw [req_of (x := []) rfl, pas_of (x := [m]) rfl, List.append_nil]
      have := h.sent
      rw [hp] at this
      simpa using this
    · rw [rcv_of (x := []) rfl, rep_of (x := []) rfl, List.append_nil, List.append_nil, h3]; exact h.stream
    · rw [h1]; exact hn.hdr
    · rw [h2, h4]; exact hn.ctl
    · rw [h3]; exact hn.tcp
  | reply b l hd hp hl hc =>
    simp only [core, Core.mk.injEq] at hc
    obtain ⟨h1, h2, h3, h4, h5, h6, h7⟩ := hc
    rw [entries_core (took := []) h2.symm h7]
    refine ⟨⟨?_, ?_, ?_⟩, ⟨h4, h6.trans hn.queue, h5.trans hn.plain, ?_, ?_, ?_⟩, nostart _ _⟩
    · rw [req_of (x := []) rfl, rep_of (x := [b]) rfl, List.append_nil, List.length_append]
      have := h.took
      rw [hd] at this
      exact this
    · rw [req_of (x := []) rfl, pas_of (x := []) rfl, List.append_nil, List.append_nil]; exact h.sent
    · rw [rcv_of (x := []) rfl, rep_of (x := [b]) rfl, List.append_nil, h3]
      intro ms hms hpre
      obtain ⟨k, k1, k2, k3⟩ := h.stream ms hms hpre
      refine ⟨k, k1, ?_, k3⟩
      rw [hl] at k2
      rw [k2]; simp
    · rw [h1]; exact hn.hdr
    · intro hx
      have := (hn.ctl hx).2
      rw [hn.due, hd] at this
      cases this
    · rw [h3]; exact hn.tcp
  | read cs new hr _ hc =>
    simp only [core, Core.mk.injEq] at hc
    obtain ⟨h1, h2, h3, h4, h5, h6, h7⟩ := hc
    rw [entries_core (took := []) (ext := []) h2.symm (by simp [h7])]
    refine ⟨⟨?_, ?_, ?_⟩, ⟨h4.trans hn.due, by rw [h6, hn.queue], h5.trans hn.plain, ?_, ?_, fun hx => (by cases hx)⟩, nostart _ _⟩
    · simpa using h.took
    · simpa using h.sent
    · simp only [List.map_nil, List.append_nil]
      intro ms hms hpre
      obtain ⟨n, k1, k2, k3⟩ := h.stream ms hms hpre
      have hpre' : c.tcpIn.flatten <+: wireOfMsgs (ms.drop n) := by
        have e : wireOfMsgs ms = wireOfMsgs (ms.take n) ++ wireOfMsgs (ms.drop n) := by
          rw [← wireOfMsgs_append, List.take_append_drop]
        rw [k1, e] at hpre
        exact (List.prefix_append_right_inj _).1 hpre
      obtain ⟨n', j1, j2⟩ := hr (ms.drop n) (fun m hm => hms m (List.mem_of_mem_drop hm)) hpre'
      have e : ms.take (n + n') = ms.take n ++ (ms.drop n).take n' := List.take_add
      refine ⟨n + n', ?_, ?_, ?_⟩
      · rw [k1, j1, e, wireOfMsgs_append, h3, List.append_assoc]
      · rw [e, answers_append, k2, List.append_assoc]
        have ea : answers J ((ms.drop n).take n') = nonEvents J new := by rw [j2]; rfl
        rw [ea]
      · intro raw hraw
        rw [e]
        have eb : bodies (ms.take n ++ (ms.drop n).take n') = bodies (ms.take n) ++ new := by rw [j2]; simp [bodies]
        rw [eb]
        rcases List.mem_append.1 hraw with hraw | hraw
        · exact List.mem_append_left _ (k3 raw hraw)
        · exact List.mem_append_right _ hraw
    · rw [h1]; exact hn.hdr
    · rw [h2, h4]; exact hn.ctl
  | pop raw q hq hc =>
    simp only [core, Core.mk.injEq] at hc
    obtain ⟨h1, h2, h3, h4, h5, h6, h7⟩ := hc
    rw [entries_core (took := []) (ext := []) h2.symm (by simp [h7])]
    refine ⟨⟨?_, ?_, ?_⟩, ⟨h4.trans hn.due, h6, h5.trans hn.plain, ?_, ?_, ?_⟩, nostart _ _⟩
    · simpa using h.took
    · simpa using h.sent
    · simp only [List.map_nil, List.append_nil]
      intro ms hms hpre
      obtain ⟨n, k1, k2, k3⟩ := h.stream ms hms hpre
      refine ⟨n, by rw [h3]; exact k1, k2, fun x hx => k3 x ?_⟩
      rw [← hn.queue, hq]
      exact List.mem_cons_of_mem _ hx
    · rw [h1]; exact hn.hdr
    · rw [h2, h4]; exact hn.ctl
    · rw [h3]; exact hn.tcp

/-! ## Parents -/

theorem calls_headers {rounds : List Round} {b : Bool} (h : Calls d rounds b) {x : Str} (hx : LinkEv.cli (.header x) ∈ happens rounds) :
    ∃ header m, LinkEv.call header m ∈ happens rounds ∧ HeaderIs d.J header x := by
  induction h with
  | nil => simp [happens] at hx
  | @call rounds b header m g r hc hg ht ih =>
    rw [happens_append] at hx ⊢
    rcases List.mem_append.1 hx with hx | hx
    · obtain ⟨a, b, h1, h2⟩ := ih hx
      exact ⟨a, b, List.mem_append_left _ h1, h2⟩
    · refine ⟨header, m, List.mem_append_right _ (by simp [happens, Round.events]), ht.headers x ?_⟩
      rw [happens_call] at hx
      simp only [List.mem_cons, reduceCtorEq, List.mem_append, List.not_mem_nil, or_false, false_or] at hx
      simp only [happens, List.mem_flatMap] at hx
      obtain ⟨y, hy, he⟩ := hx
      cases y <;> simp [Round.events] at he
      subst he
      exact hy

theorem header_called {s : Link τ σ} (h : Inv d cl s) {x : Str} (hx : LinkEv.cli (.header x) ∈ s.log) :
    ∃ header m, LinkEv.call header m ∈ s.log ∧ HeaderIs d.J header x := by
  have hx' : LinkEv.cli (.header x) ∈ exchanged s.log := List.mem_filter.2 ⟨hx, rfl⟩
  have up : ∀ {header m}, LinkEv.call header m ∈ exchanged s.log → LinkEv.call header m ∈ s.log := fun h => (List.mem_filter.1 h).1
  cases h.control with
  | free rounds a b e f =>
    rw [e] at hx' up
    obtain ⟨header, m, h1, h2⟩ := calls_headers b hx'
    exact ⟨header, m, up h1, h2⟩
  | busy rounds b header m g part p a e f tr k l n =>
    rw [l] at hx' up
    rw [happens_append, List.append_assoc] at hx'
    have hcall : LinkEv.call header m ∈ s.log := up (List.mem_append_left _ (by rw [happens_append]; exact List.mem_append_right _ (by simp [happens, Round.events])))
    rcases List.mem_append.1 hx' with hx' | hx'
    · obtain ⟨a, b, h1, h2⟩ := calls_headers e hx'
      exact ⟨a, b, up (List.mem_append_left _ (by rw [happens_append]; exact List.mem_append_left _ h1)), h2⟩
    · refine ⟨header, m, hcall, ?_⟩
      rcases List.mem_append.1 hx' with hx' | hx'
      · refine tr.headers x ?_
        simp only [happens, List.mem_flatMap] at hx'
        obtain ⟨y, hy, he⟩ := hx'
        cases y <;> simp [Round.events] at he
        subst he
        simpa using hy
      · refine tr.pending x ?_
        generalize g.ph = ph at n
        cases n <;> simp at hx'
        subst hx'; rfl

theorem lastHdr_mem (log : List LinkEv) : lastHdr log = [] ∨ LinkEv.cli (.header (lastHdr log)) ∈ log := by
  unfold lastHdr
  generalize hl : (log.filterMap fun | .cli (.header h) => some h | _ => none) = l
  rcases List.eq_nil_or_concat l with rfl | ⟨l', x, rfl⟩
  · exact .inl rfl
  · right
    rw [List.concat_eq_append] at hl ⊢
    have : x ∈ (log.filterMap fun | .cli (.header h) => some h | _ => none) := by rw [hl]; simp
    simp only [List.mem_filterMap] at this
    obtain ⟨e, h1, h2⟩ := this
    split at h2
    · cases h2; simpa using h1
    · cases h2

theorem good_parent (hJ : cl.env.J = d.J) (hK : LawfulCodec d.J) (hE : d.J.parse [] = none) {s : Link τ σ} (h : Inv d cl s)
    (hc : CanonHeaders s.log) : ∃ p, dapParent cl s.dap = .ok p ∧ p.canon = true ∧ JsonUtf8 p := by
  unfold dapParent
  rw [h.parent]
  rcases lastHdr_mem s.log with h0 | h0
  · rw [h0]
    exact ⟨.obj [], rfl, by decide, (emptyObj_printable .strict).2 rfl⟩
  · obtain ⟨header, m, h1, h2⟩ := header_called h h0
    have hu : JsonUtf8 header := by
      refine Classical.byContradiction fun hn => ?_
      have h9 := hK.dump_strict header hn
      rw [HeaderIs, h9] at h2
      cases h2
    obtain ⟨y, hy1, hy2⟩ := hK.roundtrip .strict header (hc _ _ h1) hu
    unfold HeaderIs at h2
    rw [h2] at hy1
    cases hy1
    have hne : (lastHdr s.log).isEmpty = false := by
      cases hl : lastHdr s.log with
      | nil => rw [hl, hE] at hy2; cases hy2
      | cons _ _ => rfl
    rw [hne, hJ]
    refine ⟨header, by simp [Codec.parseZmq, hy2], hK.parse_wf _ _ hy2⟩

/-! ## The invariant -/

/-- What is known of the client in a state of the link; `q` are the messages that will be left after the one being handled. -/
def LiveG (cl : Client σ) (s : Link τ σ) (g : Lv) (q : List Str) : Prop :=
  match s.pc with
  | .off => s.dap.tcpIn = [] ∧ s.dap.queue = [] ∧ Order cl.env.J (sinceStart s.log)
  | .top => s.dap.queue = [] ∧ Fin cl.env.J g ∧ Now g s.dap ∧ Count cl.env.J (sinceStart s.log) s.dap.tcpIn g
  | .queue => Fin cl.env.J g ∧ Now g s.dap ∧ Count cl.env.J (sinceStart s.log) s.dap.tcpIn g
  | .io p => SafeC cl (fun g (_ : Unit) => Fin cl.env.J g) p g ∧ Now g s.dap ∧ Count cl.env.J (sinceStart s.log) s.dap.tcpIn g
  | .msg p => SafeC cl (fun g (_ : Unit) => Fin cl.env.J g ∧ g.queue = q) p g ∧ Now g s.dap ∧ Count cl.env.J (sinceStart s.log) s.dap.tcpIn g
  | .failed _ => False

def Live (cl : Client σ) (s : Link τ σ) : Prop := ∃ g q, LiveG cl s g q

/-- What is known at the next access. -/
theorem lok {s : Link τ σ} {g : Lv} (hp : ∃ p, dapParent cl s.dap = .ok p ∧ p.canon = true ∧ JsonUtf8 p) (hn : Now g s.dap)
    (hc : Count cl.env.J (sinceStart s.log) s.dap.tcpIn g) (hpol : PoliteAdapter cl.env.J s.log) : LOk cl g s.dap := by
  obtain ⟨ms, h1, h2, h3⟩ := hpol s.log (List.prefix_refl _)
  obtain ⟨n, k1, k2, k3⟩ := hc.stream ms (fun m hm => (h1 m hm).1) h2
  have e : wireOfMsgs ms = wireOfMsgs (ms.take n) ++ wireOfMsgs (ms.drop n) := by rw [← wireOfMsgs_append, List.take_append_drop]
  refine ⟨hn.due, hn.queue, hn.plain, hn.hdr, hn.ctl, hn.tcp, hp, ?_, ms.drop n, fun m hm => h1 m (List.mem_of_mem_drop hm), ?_, ?_⟩
  · intro raw hraw
    have := k3 raw hraw
    simp only [bodies, List.mem_map] at this
    obtain ⟨m, hm, rfl⟩ := this
    exact (h1 m (List.mem_of_mem_take hm)).2
  · rw [k1, e] at h2
    exact (List.prefix_append_right_inj _).1 h2
  · have ea : (answers cl.env.J ms).length = (answers cl.env.J (ms.take n)).length + (answers cl.env.J (ms.drop n)).length := by
      rw [← List.length_append, ← answers_append, List.take_append_drop]
    rw [ea, k2, List.length_append] at h3
    have t := hc.took
    have t' := congrArg List.length hc.sent
    rw [List.length_append] at t'
    unfold Lv.allow
    cases hd : g.due <;> cases hpe : g.pend <;> simp [hd, hpe] at t t' <;>
      simp only [Option.isNone, Bool.true_and, Bool.false_and, Bool.false_eq_true, if_true, if_false] <;> omega

/-- A step elsewhere. -/
theorem live_other {s s' : Link τ σ} {es : List LinkEv} {g : Lv} {q : List Str} (h : LiveG cl s g q) (hpc : s'.pc = s.pc) (hl : s'.log = s.log ++ es)
    (he : ∀ e ∈ es, Elsewhere e) (hns : LinkEv.dbg (.start true) ∉ es) (h1 : ∃ x, s'.dap.hdrIn = s.dap.hdrIn ++ x)
    (h2 : ∃ x, s'.dap.ctlIn = s.dap.ctlIn ++ x) (h3 : s'.dap.tcpIn = s.dap.tcpIn) (h4 : s'.dap.replyDue = s.dap.replyDue)
    (h5 : s'.dap.waitAttach = s.dap.waitAttach) (h6 : s'.dap.queue = s.dap.queue) : LiveG cl s' g q := by
  obtain ⟨x1, h1⟩ := h1
  obtain ⟨x2, h2⟩ := h2
  unfold LiveG at h ⊢
  rw [hpc, hl, sinceStart_append hns, h3, h6]
  have now : Now g s.dap → Now g s'.dap := by
    intro hn
    refine ⟨h4.trans hn.due, h6.trans hn.queue, h5.trans hn.plain, fun hx => ?_, fun hx => ?_, fun hx => ?_⟩
    · rw [h1]; exact fun hx' => hn.hdr hx (List.append_eq_nil_iff.1 hx').1
    · rw [h2, h4]; exact ⟨fun hx' => (hn.ctl hx).1 (List.append_eq_nil_iff.1 hx').1, (hn.ctl hx).2⟩
    · rw [h3]; exact hn.tcp hx
  generalize s.pc = pc at h ⊢
  cases pc with
  | off => exact ⟨h.1, h.2.1, h.2.2.elsewhere he⟩
  | top => exact ⟨h.1, h.2.1, now h.2.2.1, h.2.2.2.elsewhere he⟩
  | queue => exact ⟨h.1, now h.2.1, h.2.2.elsewhere he⟩
  | io p => exact ⟨h.1, now h.2.1, h.2.2.elsewhere he⟩
  | msg p => exact ⟨h.1, now h.2.1, h.2.2.elsewhere he⟩
  | failed r => exact h

theorem log_grows {s s' : Link τ σ} (hs : Step d cl s s') : s.log <+: s'.log := by
  cases hs <;> first | exact List.prefix_refl _ | exact List.prefix_append _ _

theorem polite_before {J : Codec} {l l' : List LinkEv} (h : l <+: l') (hp : PoliteAdapter J l') : PoliteAdapter J l :=
  fun pre hpre => hp pre (hpre.trans h)

theorem canon_before {l l' : List LinkEv} (h : l <+: l') (hp : CanonHeaders l') : CanonHeaders l :=
  fun header m hm => hp header m (h.subset hm)

/-- What remains of a program after an access. -/
inductive Sub {S α : Type} : K S α → K S α → Prop
  | mk {β : Type} (f : S → Res β × S) (k : Except Exc β → K S α) (b : Except Exc β) : Sub (k b) (.act f k)
  | ub {β : Type} (f : S → Res β × S) (k : Except Exc β → K S α) (r : Res α) : Sub (.done r) (.act f k)

theorem sub_step {S α : Type} {p p' : K S α} {s s' : S} (h : p.step s = some (p', s')) : Sub p' p := by
  cases p with
  | done r => cases h
  | act f k =>
    simp only [K.step, Option.some.injEq] at h
    rcases hf : f s with ⟨r, t⟩
    rw [hf] at h
    cases r <;> simp only [Prod.mk.injEq] at h <;> obtain ⟨rfl, rfl⟩ := h
    · exact .mk f k _
    · exact .mk f k _
    · exact .ub f k _
    · exact .ub f k _

/-- What the client may still read, apart from what the poll has announced. -/
def unread (s : Dap σ) (g : Lv) : Nat :=
  (s.hdrIn.length - g.hdr.toNat) + (s.ctlIn.length - g.ctl.toNat) + (s.tcpIn.length - g.tcp.toNat)

theorem unread_le {J : Codec} {c c' : Dap σ} {g g' : Lv} (hm : LMv J g c c' g') : unread c' g' ≤ unread c g := by
  cases hm with
  | quiet ext he hc =>
    simp only [core, Core.mk.injEq] at hc
    obtain ⟨h1, h2, h3, _⟩ := hc
    unfold unread; rw [h1, h2, h3]; omega
  | header x r hq hc =>
    simp only [core, Core.mk.injEq] at hc
    obtain ⟨h1, h2, h3, _⟩ := hc
    unfold unread; rw [h1, h2, h3, hq]
    cases g.hdr <;> simp <;> omega
  | recv m r hq hd hp hc =>
    simp only [core, Core.mk.injEq] at hc
    obtain ⟨h1, h2, h3, _⟩ := hc
    unfold unread; rw [h1, h2, h3, hq]
    cases g.ctl <;> simp <;> omega
  | tcp m hp hc =>
    simp only [core, Core.mk.injEq] at hc
    obtain ⟨h1, h2, h3, _⟩ := hc
    unfold unread; rw [h1, h2, h3]; simp
  | reply b n hd hp hl hc =>
    simp only [core, Core.mk.injEq] at hc
    obtain ⟨h1, h2, h3, _⟩ := hc
    unfold unread; rw [h1, h2, h3]; simp
  | read cs new hr hlt hc =>
    simp only [core, Core.mk.injEq] at hc
    obtain ⟨h1, h2, h3, _⟩ := hc
    unfold unread; rw [h1, h2, h3]
    cases g.tcp <;> simp <;> omega
  | pop raw q hq hc =>
    simp only [core, Core.mk.injEq] at hc
    obtain ⟨h1, h2, h3, _⟩ := hc
    unfold unread; rw [h1, h2, h3]; simp

theorem live_access {s : Link τ σ} {p p' : K (Dap σ) Unit} {c : Dap σ} {g : Lv} {Q : Lv → Unit → Prop}
    (hpar : ∃ p, dapParent cl s.dap = .ok p ∧ p.canon = true ∧ JsonUtf8 p) (hpol : PoliteAdapter cl.env.J s.log)
    (k1 : SafeC cl Q p g) (k2 : Now g s.dap) (k3 : Count cl.env.J (sinceStart s.log) s.dap.tcpIn g)
    (hr : Ready p s.dap) (hst : p.step s.dap = some (p', c)) :
    ∃ g', SafeC cl Q p' g' ∧ Now g' c ∧ Count cl.env.J (sinceStart (s.log ++ dapEntries s.dap c)) c.tcpIn g' ∧
      unread c g' ≤ unread s.dap g := by
  obtain ⟨g', hm, hw⟩ := k1.step (lok hpar k2 k3 hpol) hr hst
  obtain ⟨j1, j2, j3⟩ := count_step k3 k2 hm
  refine ⟨g', hw, j2, ?_, unread_le hm⟩
  rw [sinceStart_append j3]
  exact j1

theorem fin_eq {J : Codec} {g : Lv} (h : Fin J g) : g = ⟨false, false, false, g.due, none, g.queue, nonEvents J g.queue⟩ := by
  obtain ⟨a1, a2, a3, a4, a5, a6, a7⟩ := g
  obtain ⟨h1, h2, h3, h4, h5⟩ := h
  simp only at h1 h2 h3 h4 h5
  subst h1 h2 h3 h4 h5
  rfl

/-- How far the client is from resting, apart from what it is just executing. -/
def rank (s : Link τ σ) (g : Lv) (q : List Str) : Nat × Nat × Nat × Nat :=
  match s.pc with
  | .io _ => (unread s.dap g, 2, 0, 0)
  | .msg _ => (unread s.dap g, 1, q.length, 1)
  | .queue => (unread s.dap g, 1, s.dap.queue.length, 0)
  | .top => (unread s.dap g, 0, 1, 0)
  | _ => (unread s.dap g, 0, 0, 0)

/-- The client goes on. -/
inductive Goes (cl : Client σ) (s s' : Link τ σ) (g : Lv) (q : List Str) : Prop
  /-- one access -/
  | io {p p' g'} : s.pc = .io p → s'.pc = .io p' → Sub p' p → LiveG cl s' g' q → unread s'.dap g' ≤ unread s.dap g → Goes cl s s' g q
  | msg {p p' g'} : s.pc = .msg p → s'.pc = .msg p' → Sub p' p → LiveG cl s' g' q → unread s'.dap g' ≤ unread s.dap g → Goes cl s s' g q
  /-- from one part of the loop to the next -/
  | on {g' q'} : LiveG cl s' g' q' → Prod.Lex (· < ·) (Prod.Lex (· < ·) (Prod.Lex (· < ·) (· < ·))) (rank s' g' q') (rank s g q) → Goes cl s s' g q

theorem Goes.live {s s' : Link τ σ} {g : Lv} {q : List Str} (h : Goes cl s s' g q) : Live cl s' := by
  cases h with
  | io _ _ _ h _ => exact ⟨_, _, h⟩
  | msg _ _ _ h _ => exact ⟨_, _, h⟩
  | on h _ => exact ⟨_, _, h⟩

/-- The control thread goes on. -/
inductive CtlLess {S α : Type} : Option (K S α) → Option (K S α) → Prop
  | step {p p'} : Sub p' p → CtlLess (some p') (some p)
  | ret {r} : CtlLess none (some (.done r))

theorem live_step (hJ : cl.env.J = d.J) (hK : LawfulCodec d.J) (hE : d.J.parse [] = none) (hcl : CivilClient cl)
    {s s' : Link τ σ} (hi : Inv d cl s) (hcan : CanonHeaders s'.log) (hpol : PoliteAdapter d.J s'.log) {g : Lv} {q : List Str}
    (h : LiveG cl s g q) (hs : Step d cl s s') :
    (s'.ctl = s.ctl ∧ Goes cl s s' g q) ∨ (Live cl s' ∧ (s'.pc = s.pc ∨ CtlLess s'.ctl s.ctl)) := by
  have hpar := good_parent hJ hK hE hi (canon_before (log_grows hs) hcan)
  have hpol' : PoliteAdapter cl.env.J s.log := hJ ▸ polite_before (log_grows hs) hpol
  have hK' : LawfulCodec cl.env.J := hJ ▸ hK
  cases hs with
  | call header m hf =>
    exact .inr ⟨⟨g, q, live_other h rfl rfl (fun e he => by rw [List.mem_singleton.1 he]; trivial) (by simp) ⟨[], by simp⟩ ⟨[], by simp⟩ rfl rfl rfl rfl⟩, .inl rfl⟩
  | @ret r hp hu hh =>
    exact .inr ⟨⟨g, q, live_other h rfl rfl (fun e he => by rw [List.mem_singleton.1 he]; trivial) (by simp) ⟨[], by simp⟩ ⟨[], by simp⟩ rfl rfl rfl rfl⟩, .inl rfl⟩
  | @dbg p p' t hp hr hst hns =>
    cases hi.control with
    | free _ a => rw [hp] at a; cases a
    | busy rounds b header m r part p a e f tr k l n =>
      rw [hp] at a
      cases a
      obtain ⟨g', hm, hw⟩ := f.step ⟨k, n.arrived⟩ hr hst
      obtain ⟨es, hs, rs, part', h1, h2, h3, h4⟩ := net_dbg n hm
      obtain ⟨k1, k2⟩ := dbgDid_entries h1 s.dap
      have hkind := dbgDid_kind h1
      refine .inr ⟨⟨g, q, live_other (es := es) h rfl (by rw [← k1]) ?_ ?_ ⟨hs, by rw [k2]⟩ ⟨rs, by rw [k2]⟩ rfl rfl rfl rfl⟩, .inl rfl⟩
      · intro e he
        rcases hkind e he with ⟨a, rfl⟩ | ⟨a, rfl⟩ | ⟨a, rfl⟩ <;> trivial
      · intro hx
        refine hns ?_
        rw [← k1] at hx
        simp only [dbgEntries, List.mem_append, List.mem_map, reduceCtorEq, and_false, exists_false, false_or, LinkEv.dbg.injEq,
          exists_eq_right] at hx
        exact hx
  | @start p p' t c x hp hr hst hss hoff hrun =>
    cases hi.control with
    | free _ a => rw [hp] at a; cases a
    | busy rounds b header m r part p a e f tr k l n =>
      rw [hp] at a
      cases a
      obtain ⟨g', hm, hw⟩ := f.step ⟨k, n.arrived⟩ hr hst
      have hidle : r.ph = .idle ∧ dbgEntries s.dbg t = [.dbg (.start true)] := by
        unfold Starts at hss
        have drop : ∀ {e}, t.out = s.dbg.out ++ [e] → t.out.drop s.dbg.out.length = [e] := fun h => by rw [h, List.drop_left' rfl]
        have drop' : t.out = s.dbg.out → t.out.drop s.dbg.out.length = [] := fun h => by rw [h]; simp
        cases hm with
        | quiet q1 q2 q3 q4 q5 => rw [drop' q5] at hss; cases hss
        | start q1 q2 q3 q4 q5 =>
          rw [drop q5] at hss
          simp only [List.mem_singleton, Dbg.Event.start.injEq] at hss
          refine ⟨q1, ?_⟩
          unfold dbgEntries
          rw [drop q5, q3, q4]
          simp [← hss]
        | stop q1 q2 q3 q4 q5 => rw [drop q5] at hss; simp at hss
        | header q0 q1 q2 q3 q4 q5 => rw [drop q5] at hss; simp at hss
        | request q0 q1 q2 q3 q4 q5 => rw [drop q5] at hss; simp at hss
        | acked q1 q2 q3 q4 q5 => rw [drop' q5] at hss; cases hss
        | answered q1 q2 q3 q4 q5 => rw [drop' q5] at hss; cases hss
      obtain ⟨hi', hes⟩ := hidle
      have hnet : s.dap.ctlIn = [] ∧ s.dap.replyDue = false := by
        rw [hi'] at n
        cases n with
        | idle _ b c => exact ⟨b, c⟩
      have hc := start_runs hnet.2 hnet.1 hrun
      unfold LiveG at h
      rw [hoff] at h
      subst hc
      refine .inr ⟨⟨⟨false, false, false, false, none, [], []⟩, [], ?_⟩, .inr ?_⟩
      · show LiveG cl (Link.mk t _ _ .top (s.log ++ dbgEntries s.dbg t)) _ _
        refine ⟨h.2.1, ⟨rfl, rfl, rfl, rfl, rfl⟩, ⟨rfl, h.2.1, hcl.plain, fun hx => (by cases hx), fun hx => (by cases hx), fun hx => (by cases hx)⟩, ?_⟩
        rw [hes]
        show Count _ (sinceStart (s.log ++ [_])) s.dap.tcpIn _
        rw [sinceStart_start, h.1]
        exact ⟨rfl, rfl, fun ms _ _ => ⟨0, rfl, rfl, fun raw hraw => by cases hraw⟩⟩
      · rw [hp]; exact .step (sub_step hst)
  | @io p p' c hp hr hst =>
    unfold LiveG at h
    rw [hp] at h
    obtain ⟨k1, k2, k3⟩ := h
    obtain ⟨g', j1, j2, j3, j4⟩ := live_access hpar hpol' k1 k2 k3 hr hst
    exact .inl ⟨rfl, .io (g' := g') hp rfl (sub_step hst) ⟨j1, j2, j3⟩ j4⟩
  | @msg p p' c hp hr hst =>
    unfold LiveG at h
    rw [hp] at h
    obtain ⟨k1, k2, k3⟩ := h
    obtain ⟨g', j1, j2, j3, j4⟩ := live_access hpar hpol' k1 k2 k3 hr hst
    exact .inl ⟨rfl, .msg (g' := g') hp rfl (sub_step hst) ⟨j1, j2, j3⟩ j4⟩
  | @poll a b c hp hrs hok =>
    unfold LiveG at h
    rw [hp] at h
    obtain ⟨h1, h2, h3, h4⟩ := h
    have hg := fin_eq h2
    refine .inl ⟨rfl, .on (g' := ⟨a, b, c, g.due, none, g.queue, nonEvents cl.env.J g.queue⟩) (q' := []) ⟨safe_afterPoll .., ?_, ?_⟩ ?_⟩
    · exact ⟨h3.due, h3.queue, h3.plain, hok.2.1, hok.2.2.1, hok.2.2.2⟩
    · rw [hg] at h4; exact ⟨h4.1, h4.2, h4.3⟩
    · unfold rank
      rw [hp]
      refine .left _ _ ?_
      unfold unread
      rw [hg]
      obtain ⟨o1, o2, o3, o4⟩ := hok
      have e1 : a = true → 0 < s.dap.hdrIn.length := fun h => List.length_pos_iff.2 (o2 h)
      have e2 : b = true → 0 < s.dap.ctlIn.length := fun h => List.length_pos_iff.2 (o3 h).1
      have e3 : c = true → 0 < s.dap.tcpIn.length := fun h => List.length_pos_iff.2 (o4 h)
      clear o2 o3 o4
      cases a <;> cases b <;> cases c <;> simp at o1 e1 e2 e3 ⊢ <;> omega
  | @polled hp =>
    unfold LiveG at h
    rw [hp] at h
    obtain ⟨⟨_, _, k1⟩, k2, k3⟩ := h
    refine .inl ⟨rfl, .on (g' := g) (q' := []) ⟨k1, k2, k3⟩ ?_⟩
    unfold rank
    rw [hp]
    exact .right _ (.left _ _ (by omega))
  | @next raw r hp hq =>
    unfold LiveG at h
    rw [hp] at h
    obtain ⟨h1, h2, h3⟩ := h
    have ho : Proper cl.env.J raw := (lok hpar h2 h3 hpol').objects raw (by
        rw [← h2.queue, hq]; exact List.mem_cons_self)
    have hg := fin_eq h1
    rw [← h2.queue, hq] at hg
    refine .inl ⟨rfl, .on (g' := g) (q' := r) ⟨?_, h2, h3⟩ ?_⟩
    · rw [hg]; exact safe_process hK' hcl ho
    · unfold rank
      rw [hp]
      refine .right _ (.right _ (.left _ _ ?_))
      rw [hq]; exact Nat.lt_succ_self _
  | @handled hp =>
    unfold LiveG at h
    rw [hp] at h
    obtain ⟨⟨_, _, k1, k4⟩, k2, k3⟩ := h
    refine .inl ⟨rfl, .on (g' := g) (q' := []) ⟨k1, k2, k3⟩ ?_⟩
    unfold rank
    rw [hp]
    simp only [k2.queue, k4]
    exact .right _ (.right _ (.right _ (by omega)))
  | @emptied hp hq =>
    unfold LiveG at h
    rw [hp] at h
    refine .inl ⟨rfl, .on (g' := g) (q' := []) ⟨hq, h⟩ ?_⟩
    unfold rank
    rw [hp]
    exact .right _ (.left _ _ (by omega))
  | @fail r hp hne =>
    unfold LiveG at h
    rcases hp with hp | hp
    all_goals
      rw [hp] at h
      obtain ⟨⟨_, hr, _⟩, _⟩ := h
      exact absurd hr hne
  | @leave hp hrs =>
    unfold LiveG at h
    rw [hp] at h
    refine .inl ⟨rfl, .on (g' := g) (q' := []) ⟨rfl, h.1, ?_, fun ms hms hpre => h.2.2.2.answered hms hpre⟩ ?_⟩
    · have := h.2.2.2.sent
      rw [h.2.1.pend, Option.toList_none, List.append_nil] at this
      exact this
    have hle : unread { s.dap with requestStop := false, tcpIn := [] } g ≤ unread s.dap g := by
      unfold unread
      simp
    unfold rank
    rw [hp]
    simp only
    rcases Nat.lt_or_eq_of_le hle with hlt | heq
    · exact .left _ _ hlt
    · rw [heq]; exact .right _ (.right _ (.left _ _ (by omega)))
  | @arrive bytes hp =>
    refine .inr ⟨⟨g, q, ?_⟩, .inl rfl⟩
    unfold LiveG at h ⊢
    have e : sinceStart (s.log ++ [.sent bytes]) = sinceStart s.log ++ [.sent bytes] := sinceStart_append (by simp)
    have now : Now g s.dap → Now g { s.dap with tcpIn := s.dap.tcpIn ++ [bytes] } := fun hn =>
      ⟨hn.due, hn.queue, hn.plain, hn.hdr, hn.ctl, fun _ hx => by simp at hx⟩
    simp only
    rw [e]
    generalize s.pc = pc at h hp ⊢
    cases pc with
    | off => exact absurd rfl hp
    | top => exact ⟨h.1, h.2.1, now h.2.2.1, h.2.2.2.arrive bytes⟩
    | queue => exact ⟨h.1, now h.2.1, h.2.2.arrive bytes⟩
    | io p => exact ⟨h.1, now h.2.1, h.2.2.arrive bytes⟩
    | msg p => exact ⟨h.1, now h.2.1, h.2.2.arrive bytes⟩
    | failed r => exact h
  | user u threads files v =>
    exact .inr ⟨⟨g, q, live_other (es := []) h rfl (by simp) (fun e he => by cases he) (by simp) ⟨[], by simp⟩ ⟨[], by simp⟩ rfl rfl rfl rfl⟩, .inl rfl⟩

theorem live_reach (hd : Dbg.Spec.Local d) (hJ : cl.env.J = d.J) (hK : LawfulCodec d.J) (hE : d.J.parse [] = none) (hcl : CivilClient cl)
    {u : τ} {files : Str → Option Str} {v : σ} {s : Link τ σ} (h : Reach d cl u files v s) (hcan : CanonHeaders s.log)
    (hpol : PoliteAdapter d.J s.log) : Live cl s := by
  induction h with
  | init => exact ⟨⟨false, false, false, false, none, [], []⟩, [], rfl, rfl, rfl, fun _ _ _ => List.nil_prefix⟩
  | step hr hs ih =>
    obtain ⟨g, q, h⟩ := ih (canon_before (log_grows hs) hcan) (polite_before (log_grows hs) hpol)
    rcases live_step hJ hK hE hcl (inv_reach hd hr) hcan hpol h hs with ⟨_, hg⟩ | ⟨hg, _⟩
    · exact hg.live
    · exact hg

end Xeus.Link
