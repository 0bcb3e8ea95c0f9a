import Verif.Dap.EventProps

/-!
# The initialization sequence of the debug adapter client: property C57
-/

namespace Xeus

open Spec K

variable {σ : Type} {cl : Client σ}

/-! ## The three conditions -/

theorem cidxFind {j v : Json} {k : Str} (h : j.find? k = some v) : j.cidx k = .ok v := by
  unfold Json.find? at h
  unfold Json.cidx
  split at h
  · simp only [h]
  · cases h

theorem cidx_ok {j v : Json} {k : Str} (h : j.cidx k = .ok v) : j.find? k = some v := by
  unfold Json.cidx at h
  unfold Json.find?
  split at h
  · split at h
    · next h1 => simp only [Res.ok.injEq] at h; rw [← h]; exact h1
    · cases h
  · cases h

theorem twoMembers_ok_true {k₁ v₁ k₂ v₂ : String} {j : Json} :
    twoMembers k₁ v₁ k₂ v₂ j = .ok true ↔ (memberIs j k₁ v₁ && memberIs j k₂ v₂) = true := by
  unfold twoMembers memberIs isText
  constructor
  · intro h
    obtain ⟨a, h1, h2⟩ := Res.bind_eq_ok.1 h
    split at h2
    · next ha =>
      obtain ⟨b, h3, h4⟩ := Res.bind_eq_ok.1 h2
      simp at h4 ha
      simp only [cidx_ok h1, cidx_ok h3, ha, h4, decide_true, Bool.and_true]
    · simp at h2
  · intro h
    simp only [Bool.and_eq_true, decide_eq_true_eq] at h
    simp [cidxFind h.1, cidxFind h.2]

theorem hits_twoMembers (J : Codec) (k₁ v₁ k₂ v₂ : String) :
    hits J (twoMembers k₁ v₁ k₂ v₂) = carries J k₁ v₁ k₂ v₂ := by
  funext raw
  unfold hits carries
  cases J.parse raw with
  | none => rfl
  | some j =>
    show decide (twoMembers k₁ v₁ k₂ v₂ j = .ok true) = (memberIs j k₁ v₁ && memberIs j k₂ v₂)
    rw [Bool.eq_iff_iff, decide_eq_true_eq]
    exact twoMembers_ok_true

theorem decided_twoMembers {J : Codec} {raw : Str} {v₁ k₂ v₂ : String} (h : DapText J raw)
    (h2 : ∀ j t, J.parse raw = some j → j.find? (lit "type") = some t → t = .str (lit v₁) →
      (j.find? (lit k₂)).isSome = true) : Decided J (twoMembers "type" v₁ k₂ v₂) raw := by
  obtain ⟨j, t, hj, ht, _⟩ := h
  by_cases he : t = .str (lit v₁)
  · obtain ⟨b, hb⟩ := Option.isSome_iff_exists.1 (h2 j t hj ht he)
    refine ⟨j, isText b v₂, hj, ?_⟩
    simp [twoMembers, cidxFind ht, cidxFind hb, isText, he]
  · refine ⟨j, false, hj, ?_⟩
    simp [twoMembers, cidxFind ht, isText, he]

theorem decided_init {J : Codec} {raw : Str} (h : DapText J raw) : Decided J isInitialized raw := by
  refine decided_twoMembers h fun j t hj ht he => ?_
  obtain ⟨j', t', hj', ht', h1, _⟩ := h
  rw [hj] at hj'; cases hj'
  rw [ht] at ht'; cases ht'
  exact h1 he

theorem decided_response {J : Codec} {raw : Str} (v : String) (h : DapText J raw) :
    Decided J (twoMembers "type" "response" "command" v) raw := by
  refine decided_twoMembers h fun j t hj ht he => ?_
  obtain ⟨j', t', hj', ht', _, h1⟩ := h
  rw [hj] at hj'; cases hj'
  rw [ht] at ht'; cases ht'
  exact h1 he

/-- The conditions exclude one another. -/
theorem carries_type {J : Codec} {v v' k₁ k₂ u₁ u₂ : String} {raw : Str} (hne : lit v ≠ lit v')
    (h : carries J "type" v k₁ u₁ raw = true) : carries J "type" v' k₂ u₂ raw = false := by
  unfold carries at h ⊢
  cases hp : J.parse raw with
  | none => rfl
  | some j =>
    simp only [hp, memberIs, Bool.and_eq_true, decide_eq_true_eq] at h
    have : memberIs j "type" v' = false := by
      simp only [memberIs, h.1, Option.some.injEq, Json.str.injEq, decide_eq_false_iff_not]
      exact hne
    simp only [this, Bool.false_and]

theorem carries_second {J : Codec} {v k u u' : String} {raw : Str} (hne : lit u ≠ lit u')
    (h : carries J "type" v k u raw = true) : carries J "type" v k u' raw = false := by
  unfold carries at h ⊢
  cases hp : J.parse raw with
  | none => rfl
  | some j =>
    simp only [hp, memberIs, Bool.and_eq_true, decide_eq_true_eq] at h
    have : memberIs j k u' = false := by
      simp only [memberIs, h.2, Option.some.injEq, Json.str.injEq, decide_eq_false_iff_not]
      exact hne
    simp only [this, Bool.and_false]

/-- Filtering out what a predicate excludes does not change the matches. -/
theorem filter_filter_excl {p q : Str → Bool} (l : List Str) (h : ∀ x, q x = true → p x = false) :
    (l.filter fun x => !p x).filter q = l.filter q := by
  rw [List.filter_filter]
  apply List.filter_congr
  intro x _
  cases hq : q x with
  | false => simp
  | true => simp [h x hq]

/-! ## The sequence -/

/-- The member `seq` of the event, as the code uses it. -/
theorem nextSeq_eq {j : Json} {n : Int} (h : j.find? (lit "seq") = some (.int n)) (hn : InInt n) :
    nextSeq j = if n = intMax then .ub "signed overflow in seq + 1" else .ok (n + 1) := by
  have h1 : j.idx (lit "seq") = .ok (.int n) := by
    unfold Json.find? at h
    unfold Json.idx
    split at h
    · simp only [h]
    · cases h
  have h2 : wrap32 n = n := by
    obtain ⟨h3, h4⟩ := hn
    simp only [intMin, intMax] at h3 h4
    simp only [wrap32]
    omega
  simp [nextSeq, h1, Json.getInt, h2]

theorem configDone_print {J : Codec} (hK : LawfulCodec J) {n : Int} (hn : InInt n) :
    ∃ content, J.dump .strict (configDone n) = some content ∧ J.parse content = some (configDone n) := by
  refine hK.roundtrip .strict _ ?_ ?_
  · have : Json.inRange n = true := by
      obtain ⟨h3, h4⟩ := hn
      simp only [intMin, intMax] at h3 h4
      simp [Json.inRange]
      omega
    simp (decide := true) [configDone, Json.canon, Json.sortedKeys, Json.canonO, this]
  · refine .obj ?_ ?_
    · intro kv hkv
      simp only [List.mem_cons, List.not_mem_nil, or_false] at hkv
      rcases hkv with rfl | rfl | rfl <;> exact utf8_lit (by decide)
    · intro kv hkv
      simp only [List.mem_cons, List.not_mem_nil, or_false] at hkv
      rcases hkv with rfl | rfl | rfl
      · exact .str (utf8_lit (by decide))
      · exact .int
      · exact .str (utf8_lit (by decide))

/-- **C57**.  The initialization sequence.  The messages already queued and those that the adapter will send, in any
order and any chunking, contain exactly one `initialized` event, one response to `configurationDone` and one response to
`attach`, among any other messages.  Then the client sends exactly one request `configurationDone`, numbered after the
event, passes the event on and publishes it, answers the pending request with the `attach` response, and does nothing
else; all other messages remain, queued or still to be read, in the same order. -/
theorem C57_init (hK : LawfulCodec cl.env.J) (hu : Utf8 cl.env.user) (hse : Utf8 cl.env.session)
    (hnow : ∀ n, Utf8 (cl.env.now n)) {ms : List DapMsg} (hms : ∀ m ∈ ms, m.Ok) {s : Dap σ}
    (hin : s.tcpIn.flatten = wireOfMsgs ms) (hst : s.stopped = []) (hdue : s.replyDue = true)
    (hwf : ∀ x ∈ s.queue ++ bodies ms, DapText cl.env.J x) {ti tc ta : Str}
    (hi : (s.queue ++ bodies ms).filter (carries cl.env.J "type" "event" "event" "initialized") = [ti])
    (hc : (s.queue ++ bodies ms).filter (carries cl.env.J "type" "response" "command" "configurationDone") = [tc])
    (ha : (s.queue ++ bodies ms).filter (carries cl.env.J "type" "response" "command" "attach") = [ta])
    {ij aj p : Json} (hij : cl.env.J.parse ti = some ij) (haj : cl.env.J.parse ta = some aj) {n : Int}
    (hseq : ij.find? (lit "seq") = some (.int n)) (hn : InInt n) (hmax : n ≠ intMax)
    (hp : (s.parentHeader = [] ∧ p = .obj []) ∨ (s.parentHeader ≠ [] ∧ cl.env.J.parse s.parentHeader = some p))
    {st' : σ} (hcb : cl.callback ij s.st = (.ok (), st')) :
    ∃ content m wire attach ms' s', (handleInitSequence cl).run s = (.ok (), s') ∧
      s'.out = s.out ++ [.tcp (dapFrame content), .callback ij, .pub m wire, .reply attach] ∧
      cl.env.J.parse content = some (.obj [(lit "command", .str (lit "configurationDone")), (lit "seq", .int (n + 1)),
        (lit "type", .str (lit "request"))]) ∧
      m.topic = lit "debug_event" ∧ m.body.content = ij ∧ m.body.parent = p ∧
      deserializePub cl.env.C cl.env.J cl.env.auth wire = .ok m ∧
      cl.env.J.parse attach = some aj ∧ s'.replyDue = false ∧ s'.st = st' ∧
      (∀ m ∈ ms', m.Ok) ∧ s'.tcpIn.flatten = wireOfMsgs ms' ∧ s'.stopped = [] ∧ s'.lost = s.lost ∧
      s'.queue ++ bodies ms' = (s.queue ++ bodies ms).filter (fun x =>
        !(carries cl.env.J "type" "event" "event" "initialized" x ||
          carries cl.env.J "type" "response" "command" "configurationDone" x ||
          carries cl.env.J "type" "response" "command" "attach" x)) := by
  have hI : hits cl.env.J isInitialized = carries cl.env.J "type" "event" "event" "initialized" :=
    hits_twoMembers ..
  have hC : hits cl.env.J isConfigDone = carries cl.env.J "type" "response" "command" "configurationDone" :=
    hits_twoMembers ..
  have hA : hits cl.env.J isAttach = carries cl.env.J "type" "response" "command" "attach" := hits_twoMembers ..
  -- the initialized event
  obtain ⟨j₁, ms₁, s₁, hj₁, _, hr₁, hs₁, hm₁, hi₁, ht₁, hl₁, _, hq₁⟩ := wait_unique (cl := cl) (cond := isInitialized) hms
    hin hst (fun x hx => decided_init (hwf x hx)) (raw := ti) (by rw [hI]; exact hi)
  rw [hij] at hj₁
  cases hj₁
  rw [hI] at hq₁
  -- the request
  obtain ⟨content, hd, hpc⟩ := configDone_print hK (n := n + 1) (by
    obtain ⟨h3, h4⟩ := hn
    simp only [InInt, intMin, intMax] at h3 h4 hmax ⊢
    omega)
  let s₂ : Dap σ := { s₁ with out := s₁.out ++ [.tcp (dapFrame content)] }
  have hr₂ : (sendDapRequest cl (configDone (n + 1))).run s₁ = (.ok (), s₂) := by
    simp only [sendDapRequest, dapEmit, Codec.writeZmq, hd, run_bind, run_ofRes, andThen_ok, run_modify]
    rfl
  have hwf₁ : ∀ x ∈ s₁.queue ++ bodies ms₁, DapText cl.env.J x := by
    intro x hx
    rw [hq₁] at hx
    exact hwf x (List.mem_filter.1 hx).1
  -- the response to configurationDone
  obtain ⟨j₃, ms₃, s₃, _, _, hr₃, hs₃, hm₃, hi₃, ht₃, hl₃, _, hq₃⟩ := wait_unique (cl := cl) (cond := isConfigDone) hm₁
    (s := s₂) hi₁ ht₁ (fun x hx => decided_response _ (hwf₁ x hx)) (raw := tc) (by
      show (s₁.queue ++ bodies ms₁).filter _ = _
      rw [hC, hq₁, filter_filter_excl _ (fun x hx => carries_type (by decide) hx), hc])
  have hq₃ : s₃.queue ++ bodies ms₃ = (s₁.queue ++ bodies ms₁).filter
      (fun x => !carries cl.env.J "type" "response" "command" "configurationDone" x) := by
    rw [hq₃, hC]
  have hwf₃ : ∀ x ∈ s₃.queue ++ bodies ms₃, DapText cl.env.J x := by
    intro x hx
    rw [hq₃] at hx
    exact hwf₁ x (List.mem_filter.1 hx).1
  -- the response to attach
  obtain ⟨j₄, ms₄, s₄, hj₄, _, hr₄, hs₄, hm₄, hi₄, ht₄, hl₄, _, hq₄⟩ := wait_unique (cl := cl) (cond := isAttach) hm₃
    (s := s₃) hi₃ ht₃ (fun x hx => decided_response _ (hwf₃ x hx)) (raw := ta) (by
      rw [hA, hq₃, filter_filter_excl _ (fun x hx => carries_second (by decide) hx), hq₁,
        filter_filter_excl _ (fun x hx => carries_type (by decide) hx), ha])
  rw [haj] at hj₄
  cases hj₄
  rw [hA] at hq₄
  -- the event
  have hst₄ : s₄.st = s.st := hs₄.st.trans (hs₃.st.trans hs₁.st)
  have hph₄ : s₄.parentHeader = s.parentHeader := hs₄.parentHeader.trans (hs₃.parentHeader.trans hs₁.parentHeader)
  have hout₄ : s₄.out = s.out ++ [.tcp (dapFrame content)] := by
    rw [hs₄.out, hs₃.out]
    show s₁.out ++ _ = _
    rw [hs₁.out]
  have hdue₄ : s₄.replyDue = true := by
    rw [hs₄.replyDue, hs₃.replyDue]
    show s₁.replyDue = true
    rw [hs₁.replyDue, hdue]
  obtain ⟨m, wire, hr₅, g1, g2, g3, g4, g5, g6, g7⟩ := C58_forward (cl := cl) hK hu hse hnow (hK.parse_wf _ _ hij) (s := s₄)
    (p := p) (by rw [hph₄]; exact hp) (st' := st') (by rw [hst₄]; exact hcb)
  -- the answer
  obtain ⟨attach, hda, hpa⟩ := hK.roundtrip .strict aj (hK.parse_wf _ _ haj).1 (hK.parse_wf _ _ haj).2
  refine ⟨content, m, wire, attach, ms₄, { s₄ with
    st := st', guids := s₄.guids + 1, clocks := s₄.clocks + 1, replyDue := false,
    out := s.out ++ [.tcp (dapFrame content), .callback ij, .pub m wire, .reply attach] }, ?_, rfl, hpc, g1, g4, g3, g7, hpa,
    rfl, rfl, hm₄, hi₄, ht₄, ?_, ?_⟩
  · simp only [handleInitSequence, run_bind, hr₁, andThen_ok, run_ofRes, nextSeq_eq hseq hn, if_neg hmax, hr₂, hr₃, hr₄,
      hr₅, Codec.writeZmq, hda, controllerSend, run_lift, hdue₄, if_true, hout₄]
    simp [List.append_assoc]
  · exact hl₄.trans (hl₃.trans hl₁)
  · show s₄.queue ++ bodies ms₄ = _
    rw [hq₄, hq₃, hq₁, List.filter_filter, List.filter_filter]
    apply List.filter_congr
    intro x _
    cases carries cl.env.J "type" "event" "event" "initialized" x <;>
      cases carries cl.env.J "type" "response" "command" "configurationDone" x <;>
      cases carries cl.env.J "type" "response" "command" "attach" x <;> rfl

/-- **C57**.  If the number of the `initialized` event is the greatest `int`, computing its successor overflows, which is
undefined behaviour. -/
theorem C57_overflow {ms : List DapMsg} (hms : ∀ m ∈ ms, m.Ok) {s : Dap σ} (hin : s.tcpIn.flatten = wireOfMsgs ms)
    (hst : s.stopped = []) (hwf : ∀ x ∈ s.queue ++ bodies ms, DapText cl.env.J x) {ti : Str}
    (hi : (s.queue ++ bodies ms).filter (carries cl.env.J "type" "event" "event" "initialized") = [ti])
    {ij : Json} (hij : cl.env.J.parse ti = some ij) (hseq : ij.find? (lit "seq") = some (.int intMax)) :
    ∃ why s', (handleInitSequence cl).run s = (.ub why, s') ∧ s'.out = s.out := by
  have hI : hits cl.env.J isInitialized = carries cl.env.J "type" "event" "event" "initialized" :=
    hits_twoMembers ..
  obtain ⟨j₁, ms₁, s₁, hj₁, _, hr₁, hs₁, _⟩ := wait_unique (cl := cl) (cond := isInitialized) hms
    hin hst (fun x hx => decided_init (hwf x hx)) (raw := ti) (by rw [hI]; exact hi)
  rw [hij] at hj₁
  cases hj₁
  refine ⟨"signed overflow in seq + 1", s₁, ?_, hs₁.out⟩
  simp only [handleInitSequence, run_bind, hr₁, andThen_ok, run_ofRes, nextSeq_eq hseq (by decide), if_true, andThen_ub]

/-- **C57**.  While the client waits for the `attach` request, a request with another command is passed to the adapter
unchanged and nothing else happens. -/
theorem C57_other_request {s : Dap σ} {text : Str} {rest : List Str} (hw : s.waitAttach = true)
    (hdue : s.replyDue = false) (hctl : s.ctlIn = dapFrame text :: rest) {kvs : List (Str × Json)}
    (hj : cl.env.J.parse text = some (.obj kvs)) (hna : memberIs (.obj kvs) "command" "attach" = false) :
    (handleControl cl).run s = (.ok (), { s with
      ctlIn := rest, replyDue := true, out := s.out ++ [.tcp (dapFrame text)] }) := by
  have hidx : ∃ v, (Json.obj kvs).idx (lit "command") = .ok v ∧ isText v "attach" = false := by
    have hna : ¬ Json.lookup (lit "command") kvs = some (.str (lit "attach")) := by
      intro h
      have : memberIs (.obj kvs) "command" "attach" = true := decide_eq_true h
      rw [this] at hna
      cases hna
    simp only [Json.idx]
    cases hl : Json.lookup (lit "command") kvs with
    | none => exact ⟨.null, rfl, by decide⟩
    | some v =>
      rw [hl] at hna
      exact ⟨v, rfl, by simpa [isText] using hna⟩
  obtain ⟨v, h1, h2⟩ := hidx
  simp only [handleControl, controllerRecv, run_bind, run_lift, hdue, hctl, Bool.false_eq_true, if_false, andThen_ok,
    run_read, hw, if_true, handleControlWaiting, run_ofRes, controlText_frame, Codec.parseZmq, hj, dapEmit, run_modify,
    h1, h2, attachTail, run_pure]

/-- **C57**.  The `attach` request is passed to the adapter unchanged, and then the initialization sequence runs; once it
has succeeded the client no longer waits for `attach`. -/
theorem C57_attach_request {s s' : Dap σ} {text : Str} {rest : List Str} (hw : s.waitAttach = true)
    (hdue : s.replyDue = false) (hctl : s.ctlIn = dapFrame text :: rest) {j : Json}
    (hj : cl.env.J.parse text = some j) (ha : memberIs j "command" "attach" = true)
    (hinit : (handleInitSequence cl).run { s with
      ctlIn := rest, replyDue := true, out := s.out ++ [.tcp (dapFrame text)] } = (.ok (), s')) :
    (handleControl cl).run s = (.ok (), { s' with waitAttach := false }) := by
  have h1 : j.idx (lit "command") = .ok (.str (lit "attach")) := by
    simp only [memberIs, decide_eq_true_eq] at ha
    unfold Json.find? at ha
    unfold Json.idx
    split at ha
    · simp only [ha]
    · cases ha
  have h2 : isText (.str (lit "attach")) "attach" = true := by decide
  simp only [hw] at hinit
  simp only [handleControl, controllerRecv, run_bind, run_lift, hdue, hctl, Bool.false_eq_true, if_false, andThen_ok,
    run_read, hw, if_true, handleControlWaiting, run_ofRes, controlText_frame, Codec.parseZmq, hj, dapEmit, run_modify,
    h1, h2, attachTail, hinit]

/-- **C57**.  Afterwards (or in sequential mode from the start) every request is passed to the adapter unchanged. -/
theorem C57_plain_request {s : Dap σ} {raw : Str} {rest : List Str} (hw : s.waitAttach = false)
    (hdue : s.replyDue = false) (hctl : s.ctlIn = raw :: rest) :
    (handleControl cl).run s = (.ok (), { s with
      ctlIn := rest, replyDue := true, out := s.out ++ [.tcp raw] }) := by
  simp only [handleControl, controllerRecv, run_bind, run_lift, hdue, hctl, Bool.false_eq_true, if_false, andThen_ok,
    run_read, hw, dapEmit, run_modify]

/-- **C57**.  The sequence runs at most once: once the client no longer waits for `attach`, it never does again. -/
theorem C57_once {s s' : Dap σ} {r : Res Unit} (hi : Iter cl s r s') (h : s.waitAttach = false) :
    s'.waitAttach = false := by
  have hR : Pre fun s s' : Dap σ => s.waitAttach = false → s'.waitAttach = false :=
    ⟨fun _ h => h, fun h₁ h₂ h => h₂ (h₁ h)⟩
  -- every elementary action other than the end of the sequence leaves the flag alone; the sequence clears it
  have hfwd : ∀ j, Keeps (fun s s' : Dap σ => s.waitAttach = false → s'.waitAttach = false) (forwardEvent cl j) := by
    intro j s h
    rcases forwardEvent_cases (cl := cl) j s with h1 | h1 | ⟨p, w, _, _, h1⟩ <;> rw [h1] <;> exact h
  have hwait : ∀ cond, Keeps (fun s s' : Dap σ => s.waitAttach = false → s'.waitAttach = false)
      (waitForMessage cl cond) := fun cond s h => (wait_same cond s).waitAttach.trans h
  have hreq : ∀ b, Keeps (fun s s' : Dap σ => s.waitAttach = false → s'.waitAttach = false)
      (dapEmit (σ := σ) (.tcp b)) := fun b => Keeps.modify fun s h => h
  have hdreq : ∀ j, Keeps (fun s s' : Dap σ => s.waitAttach = false → s'.waitAttach = false) (sendDapRequest cl j) :=
    fun j => Keeps.bind hR (Keeps.ofRes hR _) fun _ => hreq _
  have hop : ∀ o, Keeps (fun s s' : Dap σ => s.waitAttach = false → s'.waitAttach = false) (dapSem cl o) := by
    intro o
    cases o with
    | forward j => exact Keeps.bind hR (hfwd j) fun _ => Keeps.pure hR _
    | request j => exact Keeps.bind hR (hdreq j) fun _ => Keeps.pure hR _
    | wait cond => exact Keeps.bind hR (hwait cond) fun _ => Keeps.pure hR _
    | parentHeader => exact Keeps.read hR _
  have hsend : ∀ b, Keeps (fun s s' : Dap σ => s.waitAttach = false → s'.waitAttach = false)
      (controllerSend (σ := σ) b) := by
    intro b
    refine Keeps.lift fun s h => ?_
    cases s.replyDue <;> exact h
  have hrecv : Keeps (fun s s' : Dap σ => s.waitAttach = false → s'.waitAttach = false)
      (controllerRecv (σ := σ)) := by
    refine Keeps.lift fun s h => ?_
    cases s.replyDue with
    | true => exact h
    | false => cases s.ctlIn <;> exact h
  have hinit : Keeps (fun s s' : Dap σ => s.waitAttach = false → s'.waitAttach = false) (handleInitSequence cl) :=
    Keeps.bind hR (hwait _) fun _ => Keeps.bind hR (Keeps.ofRes hR _) fun _ => Keeps.bind hR (hdreq _) fun _ =>
      Keeps.bind hR (hwait _) fun _ => Keeps.bind hR (hwait _) fun _ => Keeps.bind hR (hfwd _) fun _ =>
      Keeps.bind hR (Keeps.ofRes hR _) fun _ => hsend _
  have htail : ∀ b, Keeps (fun s s' : Dap σ => s.waitAttach = false → s'.waitAttach = false) (attachTail cl b) := by
    intro b
    cases b
    · exact Keeps.pure hR ()
    · exact Keeps.bind hR hinit fun _ => Keeps.modify fun s _ => rfl
  have hctl : Keeps (fun s s' : Dap σ => s.waitAttach = false → s'.waitAttach = false) (handleControl cl) := by
    refine Keeps.bind hR hrecv fun raw => Keeps.bind hR (Keeps.read hR _) fun w => ?_
    cases w
    · exact hreq _
    · exact Keeps.bind hR (Keeps.ofRes hR _) fun _ => Keeps.bind hR (Keeps.ofRes hR _) fun _ => Keeps.bind hR (hreq _)
        fun _ => Keeps.bind hR (Keeps.ofRes hR _) fun _ => htail _
  have hmsg : ∀ raw, Keeps (fun s s' : Dap σ => s.waitAttach = false → s'.waitAttach = false) (handleMessage cl raw) := by
    intro raw
    refine Keeps.bind hR (Keeps.ofRes hR _) fun j => Keeps.bind hR (Keeps.ofRes hR _) fun t => ?_
    split
    · exact Keeps.bind hR (Keeps.modify fun s h => h) fun _ => keeps_dapExec hR (fun s st h => h) hop _
    · exact Keeps.bind hR (Keeps.ofRes hR _) fun _ => Keeps.bind hR (Keeps.modify fun s h => h) fun _ =>
        Keeps.bind hR (hsend _) fun _ => Keeps.modify fun s h => h
  refine keeps_iter hR (fun raw => Keeps.bind hR (hmsg raw) fun _ => ?_) (fun a b c => ?_) hi h
  · refine Keeps.lift fun s h => ?_
    cases s.queue <;> exact h
  · refine Keeps.bind hR (keeps_whenK hR ?_) fun _ => Keeps.bind hR (keeps_whenK hR hctl) fun _ => keeps_whenK hR ?_
    · refine Keeps.lift fun s h => ?_
      cases s.hdrIn <;> exact h
    · refine Keeps.lift fun s h => ?_
      cases handleTcp s.queue s.tcpIn <;> exact h

end Xeus
