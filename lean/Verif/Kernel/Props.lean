import Verif.Kernel.Courses
import Verif.Kernel.Sample

/-!
# Properties C11–C16, C22–C25, C27: how the kernel handles one message

Only the property theorems and the `example`s that instantiate their hypotheses.  `(dispatch env I q c).run w` is
the outcome and final state of `xkernel_core::dispatch` on the multipart `q` received on channel `c` in state `w`.
-/

namespace Xeus

open Spec K

variable {σ : Type}

/-! ## C11 -/

/-- C11: a refused multipart changes nothing and stops nothing. -/
theorem C11_refused (env : Env) (I : Interp σ) (q : Multipart) (c : Chan) (w : World σ)
    (h : Refused env.C env.J env.auth q) : (dispatch env I q c).run w = (.ok (), w) := by
  obtain ⟨e, he, hstd⟩ := refused_exc _ _ _ _ h
  simp only [dispatch, K.run_bind, K.run_attempt, K.run_ofRes, he, K.captured_exc, K.andThen_ok, hstd, if_true,
    K.run_pure]

example : (dispatch sampleEnv sampleInterp [lit "id", delim] .shell).run sampleWorld = (.ok (), sampleWorld) :=
  C11_refused _ _ _ _ _ (.inr (.inl ⟨[lit "id"], rfl, by decide⟩))

/-! ## C12 -/

/-- C12: everything that happens for an accepted message with a type lies between one `busy` and one `idle`, both
with the header of the message as parent; `idle` is missing only if user code threw something that is not a
`std::exception` (the last event), or the handling is undefined or blocks for ever. -/
theorem C12_bracket (env : Env) (hs : Sane env) (I : Interp σ) (q : Multipart) (m : XMessage) (c : Chan) (t : Str)
    (ha : Accepted env.C env.J env.auth q m) (ht : typeOf m.body.header = some t) (w : World σ) :
    ∃ b es fin, IsStatus env c "busy" m.body.header b ∧ (∀ e ∈ es, ¬ AnyStatus e) ∧
      ((dispatch env I q c).run w).2.out = w.out ++ ([b] ++ es ++ fin) ∧
      ((((dispatch env I q c).run w).1 = .ok () ∧ ∃ i, fin = [i] ∧ IsStatus env c "idle" m.body.header i) ∨
       (fin = [] ∧ ((∃ n es', ((dispatch env I q c).run w).1 = .exc (.foreign n) ∧ es = es' ++ [.threw (.foreign n)]) ∨
        (∃ s, ((dispatch env I q c).run w).1 = .ub s) ∨ ((dispatch env I q c).run w).1 = .hang))) := by
  obtain ⟨b, pre, rep, ab, fin, done, stuck, hb, hout, _, hpre, _, hrep, _, hab, _, _, _, _, _, _, hfin⟩ :=
    dispatch_block hs I c ha ht w
  refine ⟨b, pre ++ rep ++ ab, fin, hb, ?_, hout, ?_⟩
  · intro e he
    simp only [List.mem_append] at he
    rcases he with (he | he) | he
    · obtain ⟨r, _, h⟩ := hpre e he
      exact inner_not_status h
    · obtain ⟨r, rt, _, _, h⟩ := hrep e he
      exact anyReply_not_status (isReply_any h)
    · exact anyReply_not_status (abortAll_reply hab e he)
  · rcases hfin with ⟨h1, h2, _⟩ | ⟨h1, ⟨n, es, h2, rfl, rfl, rfl⟩ | h2 | ⟨h2, _⟩⟩
    · exact .inl ⟨h1, h2⟩
    · exact .inr ⟨h1, .inl ⟨n, es, h2, by simp⟩⟩
    · exact .inr ⟨h1, .inr (.inl h2)⟩
    · exact .inr ⟨h1, .inr (.inr h2)⟩

/-- A complete sequence of events for a concrete interpreter and request. -/
example : ∃ q b es fin, IsStatus sampleEnv .shell "busy" (sampleReq "execute_request" (.obj [])).body.header b ∧
    ((dispatch sampleEnv sampleInterp q .shell).run sampleWorld).2.out = sampleWorld.out ++ ([b] ++ es ++ fin) := by
  obtain ⟨q, hq⟩ := sampleReq_accepted "execute_request" (.obj []) (by decide) (by decide) (by decide)
  obtain ⟨b, es, fin, h1, _, h2, _⟩ := C12_bracket sampleEnv sampleEnv_sane sampleInterp q _ .shell
    (lit "execute_request") hq (by decide) sampleWorld
  exact ⟨q, b, es, fin, h1, h2⟩

/-! ## C13 -/

/-- C13: every reply sent while `m` is handled is the reply of the type belonging to the request, on the channel of
`m`, to its sender, with its header as parent header; or else it is the abort reply to a message waiting on the
shell socket. -/
theorem C13_replies (env : Env) (hs : Sane env) (I : Interp σ) (q : Multipart) (m : XMessage) (c : Chan)
    (ha : Accepted env.C env.J env.auth q m) (w : World σ) :
    ∃ es, ((dispatch env I q c).run w).2.out = w.out ++ es ∧ ∀ e ∈ es, AnyReply e →
      (∃ r rt, IsReq m r ∧ replyType r = some rt ∧ IsReply env c m.ids m.body.header (lit rt) e) ∨
      (IsReq m .execute ∧ ∃ q' ∈ w.shellQ, ∃ m', Accepted env.C env.J env.auth q' m' ∧ IsAbortReply env m' e) := by
  cases ht : typeOf m.body.header with
  | none =>
    obtain ⟨w₀, hb, hrun⟩ := untyped hs I c ha w ht
    obtain ⟨b, hb1, hb2⟩ := hb.out
    refine ⟨[b], by rw [hrun, hb2], ?_⟩
    intro e he hr
    obtain rfl := List.mem_singleton.mp he
    exact absurd hr (isStatus_not_reply hb1)
  | some t =>
    obtain ⟨b, pre, rep, ab, fin, done, stuck, hb, hout, _, hpre, _, hrep, hsq, hab, _, hne, _, _, _, _, hfin⟩ :=
      dispatch_block hs I c ha ht w
    refine ⟨_, hout, ?_⟩
    intro e he hr
    simp only [List.mem_append, List.mem_singleton] at he
    rcases he with (rfl | (he | he) | he) | he
    · exact absurd hr (isStatus_not_reply hb)
    · obtain ⟨r, _, h⟩ := hpre e he
      exact absurd hr (inner_not_reply h)
    · exact .inl (hrep e he)
    · right
      by_cases hx : IsReq m .execute
      · refine ⟨hx, ?_⟩
        have : ∀ {qs ab}, AbortAll env qs ab → e ∈ ab →
            ∃ q' ∈ qs, ∃ m', Accepted env.C env.J env.auth q' m' ∧ IsAbortReply env m' e := by
          intro qs ab h
          induction h with
          | nil => simp
          | dropped _ _ ih =>
            intro he
            obtain ⟨q', h1, h2⟩ := ih he
            exact ⟨q', List.mem_cons_of_mem _ h1, h2⟩
          | answered h1 h2 _ ih =>
            intro he
            rcases List.mem_cons.mp he with rfl | he
            · exact ⟨_, List.mem_cons_self, _, h1, h2⟩
            · obtain ⟨q', h1, h2⟩ := ih he
              exact ⟨q', List.mem_cons_of_mem _ h1, h2⟩
        obtain ⟨q', h1, h2⟩ := this hab he
        exact ⟨q', by rw [hsq]; simp [h1], h2⟩
      · rw [(hne hx).1] at hab
        cases hab
        simp at he
    · rcases hfin with ⟨_, ⟨i, rfl, hi⟩, _⟩ | ⟨rfl, _⟩
      · rcases List.mem_singleton.mp he with rfl
        exact absurd hr (isStatus_not_reply hi)
      · simp at he

example : ∃ q, Accepted sampleEnv.C sampleEnv.J sampleEnv.auth q
    (sampleReq "complete_request" (.obj [(lit "code", .str (lit "x.")), (lit "cursor_pos", .int 2)])) :=
  sampleReq_accepted _ _ (by decide) (by decide) (by decide +kernel)

/-! ## C14 -/

/-- C14: at most one reply to the message itself; all other replies are abort replies to messages that were waiting,
and only an execute request sends those. -/
theorem C14_at_most_one (env : Env) (hs : Sane env) (I : Interp σ) (q : Multipart) (m : XMessage) (c : Chan)
    (ha : Accepted env.C env.J env.auth q m) (w : World σ) :
    ∃ es rep ab done rest, ((dispatch env I q c).run w).2.out = w.out ++ es ∧ repliesIn es = rep ++ ab ∧
      rep.length ≤ 1 ∧ w.shellQ = done ++ rest ∧ AbortAll env done ab ∧ (¬ IsReq m .execute → ab = []) ∧
      ((IsReq m .commOpen ∨ IsReq m .commClose ∨ IsReq m .commMsg) → rep = []) := by
  cases ht : typeOf m.body.header with
  | none =>
    obtain ⟨w₀, hb, hrun⟩ := untyped hs I c ha w ht
    obtain ⟨b, hb1, hb2⟩ := hb.out
    refine ⟨[b], [], [], [], w.shellQ, by rw [hrun, hb2], ?_, by simp, rfl, .nil, by simp, by simp⟩
    exact repliesIn_none (by simpa using isStatus_not_reply hb1)
  | some t =>
    obtain ⟨b, pre, rep, ab, fin, done, stuck, hb, hout, _, hpre, hlen, hrep, hsq, hab, _, hne, _, _, _, _, hfin⟩ :=
      dispatch_block hs I c ha ht w
    refine ⟨_, rep, ab, done, _, hout, ?_, hlen, by rw [hsq, List.append_assoc], hab, ?_, ?_⟩
    · have h1 : repliesIn pre = [] := repliesIn_none fun e he => by
        obtain ⟨r, _, h⟩ := hpre e he
        exact inner_not_reply h
      have h2 : repliesIn rep = rep := repliesIn_all fun e he => by
        obtain ⟨_, _, _, _, h⟩ := hrep e he
        exact isReply_any h
      have h3 : repliesIn [b] = [] := repliesIn_none (by simpa using isStatus_not_reply hb)
      have h4 : repliesIn fin = [] := by
        rcases hfin with ⟨_, ⟨i, rfl, hi⟩, _⟩ | ⟨rfl, _⟩
        · exact repliesIn_none (by simpa using isStatus_not_reply hi)
        · rfl
      simp only [repliesIn_append, h1, h2, h3, h4, repliesIn_all (abortAll_reply hab), List.nil_append, List.append_nil]
    · intro hx
      rw [(hne hx).1] at hab
      cases hab
      rfl
    · intro hcomm
      cases rep with
      | nil => rfl
      | cons e r =>
        obtain ⟨r', rt, h1, h2, _⟩ := hrep e List.mem_cons_self
        have key : ∀ r₁ r₂ : Req, IsReq m r₁ → IsReq m r₂ → r₁ = r₂ := by
          intro r₁ r₂ h₁ h₂
          unfold IsReq at h₁ h₂
          rw [h₁] at h₂
          revert h₂
          cases r₁ <;> cases r₂ <;> decide
        rcases hcomm with h | h | h
        all_goals
          have := key _ _ h h1
          subst this
          simp [replyType] at h2

/-- C14: a request with well-typed fields for which user code returns what it should is answered, and only once. -/
theorem C14_exactly_one (env : Env) (hs : Sane env) (I : Interp σ) (q : Multipart) (m : XMessage) (c : Chan) (r : Req)
    (ha : Accepted env.C env.J env.auth q m) (hr : IsReq m r) (w : World σ) (hp : ParentsOk w)
    (hserved : Served env I m c w r) :
    ∃ rt es rep ab done rest, replyType r = some rt ∧ ((dispatch env I q c).run w).1 = .ok () ∧
      ((dispatch env I q c).run w).2.out = w.out ++ es ∧ repliesIn es = rep :: ab ∧
      IsReply env c m.ids m.body.header (lit rt) rep ∧ w.shellQ = done ++ rest ∧ AbortAll env done ab ∧
      (r ≠ .execute → ab = []) := by
  have wrap : ∀ {rt : String} {es : List Ev} {rep : Ev}, replyType r = some rt →
      ((dispatch env I q c).run w).1 = .ok () → ((dispatch env I q c).run w).2.out = w.out ++ es →
      repliesIn es = [rep] → IsReply env c m.ids m.body.header (lit rt) rep →
      ∃ rt es rep ab done rest, replyType r = some rt ∧ ((dispatch env I q c).run w).1 = .ok () ∧
        ((dispatch env I q c).run w).2.out = w.out ++ es ∧ repliesIn es = rep :: ab ∧
        IsReply env c m.ids m.body.header (lit rt) rep ∧ w.shellQ = done ++ rest ∧ AbortAll env done ab ∧
        (r ≠ .execute → ab = []) :=
    fun {rt es rep} h1 h2 h3 h4 h5 => ⟨rt, es, rep, [], [], w.shellQ, h1, h2, h3, h4, h5, rfl, .nil, fun _ => rfl⟩
  cases r with
  | commOpen => exact hserved.elim
  | commClose => exact hserved.elim
  | commMsg => exact hserved.elim
  | complete =>
    obtain ⟨code, pos, hf, hret⟩ := hserved
    obtain ⟨h1, es, rep, h2, h3, h4⟩ := verbatim_one (keeps_user hs.log _) (complete_course hs I c ha w hr hf) hret
    exact wrap rfl h1 h2 h3 h4
  | inspect =>
    obtain ⟨code, pos, detail, hf, hret⟩ := hserved
    obtain ⟨h1, es, rep, h2, h3, h4⟩ := verbatim_one (keeps_user hs.log _) (inspect_course hs I c ha w hr hf) hret
    exact wrap rfl h1 h2 h3 h4
  | isComplete =>
    obtain ⟨code, hf, hret⟩ := hserved
    obtain ⟨h1, es, rep, h2, h3, h4⟩ := verbatim_one (keeps_user hs.log _) (isComplete_course hs I c ha w hr hf) hret
    exact wrap rfl h1 h2 h3 h4
  | debug =>
    obtain ⟨d, hd, hret⟩ := hserved
    obtain ⟨h1, es, rep, h2, h3, h4⟩ := verbatim_one (keeps_debugger hs.log I _) (debug_course hs I c ha w hr hd) hret
    exact wrap rfl h1 h2 h3 h4
  | history =>
    obtain ⟨j, hj, hpj⟩ := hserved
    obtain ⟨rep, hrep, hh⟩ := (history_handled hs I c ha w hr).1 j hj hpj
    obtain ⟨es, h1, h2⟩ := handled_replies hh
    exact wrap rfl hh.ok h1 (by rw [h2, reply_one (isReplyWith_isReply hrep)]) (isReplyWith_isReply hrep)
  | commInfo =>
    obtain ⟨⟨wanted, hf⟩, hl, hu⟩ := hserved
    obtain ⟨j, rep, _, hrep, hh⟩ := commInfo_handled hs I c ha hr hf hl hu
    obtain ⟨es, h1, h2⟩ := handled_replies hh
    exact wrap rfl hh.ok h1 (by rw [h2, reply_one (isReplyWith_isReply hrep)]) (isReplyWith_isReply hrep)
  | interrupt =>
    obtain ⟨n, rep, ⟨_, _, rfl, _⟩, hrep, hh⟩ := interrupt_handled hs I c ha w hr hp
    obtain ⟨es, h1, h2⟩ := handled_replies hh
    refine wrap rfl hh.ok h1 ?_ (isReplyWith_isReply hrep)
    rw [h2]
    show repliesIn [rep] = _
    exact reply_one (isReplyWith_isReply hrep)
  | kernelInfo =>
    obtain ⟨w₁, hat, hok, _⟩ := kernelInfo_course hs I c ha w hr
    obtain ⟨j, w₂, hrun, ho, hpj⟩ := hserved _ _ hat
    have hk := keeps_user hs.log I.kernelInfo w₁
    rw [hrun] at hk
    obtain ⟨j', _, hpj', ⟨_, rep, hrep, hc⟩ | ⟨h, _⟩⟩ := hok j w₂ hrun (.inl ho)
    · obtain ⟨b, outs, i, hb, hi, hpo, hout⟩ := concludes_events hat hk rfl hc
      refine wrap rfl hc.ok hout ?_ (isReplyWith_isReply hrep)
      rw [events_replies hb hi (by simp) hpo, reply_one (isReplyWith_isReply hrep)]
    · exact absurd (hpj' hpj) h
  | shutdown =>
    obtain ⟨⟨restart, hf⟩, hret⟩ := hserved
    obtain ⟨w₁, hat, hok, _⟩ := shutdown_course hs I c ha w hr hf hp
    obtain ⟨_, w₂, hrun, _⟩ := hret _ _ hat
    have hk := keeps_user hs.log I.shutdown w₁
    rw [hrun] at hk
    obtain ⟨n, rep, ⟨_, _, rfl, _⟩, hrep, hc⟩ := hok w₂ hrun
    obtain ⟨b, outs, i, hb, hi, hpo, hout⟩ := concludes_events hat hk rfl hc
    refine wrap rfl hc.ok hout ?_ (isReplyWith_isReply hrep)
    rw [events_replies hb hi (by simp) hpo]
    show repliesIn [rep] = _
    exact reply_one (isReplyWith_isReply hrep)
  | execute =>
    obtain ⟨f, hf, hc0, hc1, hq, hret⟩ := hserved
    obtain ⟨w₁, pre, hat, hann, _, _, _, hok, _⟩ := exec_course hs I c ha hr hf hp (fun _ => hc1) hc0
    obtain ⟨j, w₂, hrun, ho, hpj, s, hst⟩ := hret _ _ hat
    have hk := keeps_user hs.log (execProg I w f) w₁
    rw [hrun] at hk
    obtain ⟨j', _, hpj', ⟨_, md, rep, _, hrep, hend⟩ | ⟨h, _⟩⟩ := hok j w₂ s hrun (.inl ho) hst
    · by_cases hab : Aborts f s
      · obtain ⟨done, stuck, rest, ab, hsq, _, habs, _, _, _, hend, _⟩ := hend.2 hab
        rw [hk.shellQ, hat.shellQ] at hsq
        have hc := hend fun q' hq' => hq q' (by rw [hsq]; simp [hq'])
        obtain ⟨b, outs, i, hb, hi, hpo, hout⟩ := concludes_events hat hk (by rfl) hc
        refine ⟨_, _, rep, ab, done, stuck ++ rest, rfl, hc.ok, hout, ?_, isReplyWith_isReply hrep, by simp [hsq],
          habs, by simp⟩
        rw [events_replies hb hi (announce_no_reply hann) hpo, repliesIn_append, reply_one (isReplyWith_isReply hrep),
          repliesIn_all (abortAll_reply habs)]
        rfl
      · have hc := hend.1 hab
        obtain ⟨b, outs, i, hb, hi, hpo, hout⟩ := concludes_events hat hk (by rfl) hc
        refine wrap rfl hc.ok hout ?_ (isReplyWith_isReply hrep)
        rw [events_replies hb hi (announce_no_reply hann) hpo, reply_one (isReplyWith_isReply hrep)]
    · exact absurd (hpj' hpj) h

/-- The execution of `bad` by the sample interpreter is served. -/
example : ∃ q m, Accepted sampleEnv.C sampleEnv.J sampleEnv.auth q m ∧ IsReq m .execute ∧
    Served sampleEnv sampleInterp m .shell sampleWorld .execute := by
  obtain ⟨q, hq⟩ := sampleReq_accepted "execute_request"
    (.obj [(lit "code", .str (lit "bad")), (lit "stop_on_error", .bool true)]) (by decide) (by decide) (by decide +kernel)
  refine ⟨q, _, hq, rfl, ⟨lit "bad", false, true, 1, .obj [], true, true⟩, rfl, by decide, by decide, ?_, ?_⟩
  · intro q hq
    exact absurd hq (by simp [sampleWorld, World.initial])
  · intro pre w₁ hat
    obtain ⟨wire, _, hpub⟩ := publishMessage_ok sampleEnv_sane (type := lit "stream") (metadata := .obj [])
      (content := (Json.put .null (lit "name") (.str (lit "stdout"))).put (lit "text") (.str (lit "bad"))) []
      (c := .shell) (w := w₁) (by rw [hat.cur]; exact (accepted_parsed sampleEnv_sane hq).1) (utf8_lit (by decide))
      (emptyObj_printable _) ⟨by decide, fun _ => (jsonUtf8_iff _).2 (by decide +kernel)⟩
    refine ⟨.obj [(lit "status", .str (lit "error"))],
      { tick w₁ with
        out := w₁.out ++ [.pub .shell (pubAt sampleEnv w₁ (lit "stream") (.obj [])
          ((Json.put .null (lit "name") (.str (lit "stdout"))).put (lit "text") (.str (lit "bad"))) [] .shell) wire],
        st := w₁.st + 1 }, ?_, rfl, ⟨by decide, fun _ => (jsonUtf8_iff _).2 (by decide +kernel)⟩, lit "error", rfl⟩
    show ((Prog.call (.pub (.stream (lit "stdout") (lit "bad"))) _).exec (Op.sem sampleEnv)).run w₁ = _
    simp only [Prog.exec, Op.sem, publishOp, PubOp.type, PubOp.content, K.run_bind, K.run_attempt, hpub, K.andThen_ok,
      K.run_pure, K.captured_ok, K.run_read, K.run_modify]
    rfl

/-! ## C15 -/

/-- C15: a message of unknown type produces `busy` and `idle` and changes nothing but the remembered request. -/
theorem C15_unknown (env : Env) (hs : Sane env) (I : Interp σ) (q : Multipart) (m : XMessage) (c : Chan) (t : Str)
    (ha : Accepted env.C env.J env.auth q m) (ht : typeOf m.body.header = some t) (hn : ∀ r, t ≠ lit (requestType r))
    (w : World σ) : Handled env m c w [] ((dispatch env I q c).run w) :=
  unknown_handled hs I c ha w ht fun r hr => hn r (by
    unfold IsReq at hr
    rw [ht] at hr
    exact Option.some.inj hr)

example : ∃ q m t, Accepted sampleEnv.C sampleEnv.J sampleEnv.auth q m ∧ typeOf m.body.header = some t ∧
    ∀ r, t ≠ lit (requestType r) := by
  obtain ⟨q, hq⟩ := sampleReq_accepted "usage_request" (.obj []) (by decide) (by decide) (by decide +kernel)
  exact ⟨q, _, lit "usage_request", hq, rfl, fun r => by cases r <;> decide⟩

/-! ## C16 -/

/-- C16: an exception leaves the dispatch exactly when the message has no type or user code threw something that is
not a `std::exception` (unless the handling is undefined); in the first case nothing but `busy` has happened. -/
theorem C16_escapes_iff (env : Env) (hs : Sane env) (I : Interp σ) (q : Multipart) (m : XMessage) (c : Chan)
    (ha : Accepted env.C env.J env.auth q m) (w : World σ) (hub : ∀ s, ((dispatch env I q c).run w).1 ≠ .ub s) :
    ∃ es, ((dispatch env I q c).run w).2.out = w.out ++ es ∧
      ((∃ e, ((dispatch env I q c).run w).1 = .exc e) ↔
        typeOf m.body.header = none ∨ ∃ n, Ev.threw (.foreign n) ∈ es) ∧
      (typeOf m.body.header = none → ∃ b, es = [b] ∧ IsStatus env c "busy" m.body.header b) := by
  cases ht : typeOf m.body.header with
  | none =>
    obtain ⟨w₀, hb, hrun⟩ := untyped hs I c ha w ht
    obtain ⟨b, hb1, hb2⟩ := hb.out
    exact ⟨[b], by rw [hrun, hb2], ⟨fun _ => .inl rfl, fun _ => ⟨.typeError, by rw [hrun]⟩⟩, fun _ => ⟨b, rfl, hb1⟩⟩
  | some t =>
    obtain ⟨b, pre, rep, ab, fin, done, stuck, hb, hout, _, _, _, hrep, _, hab, _, _, _, _, _, _, hfin⟩ :=
      dispatch_block hs I c ha ht w
    refine ⟨_, hout, ?_, by simp⟩
    have hin : ∀ n, Ev.threw (.foreign n) ∈ [b] ++ (pre ++ rep ++ ab) ++ fin → Ev.threw (.foreign n) ∈ pre := by
      intro n hn
      simp only [List.mem_append, List.mem_singleton] at hn
      rcases hn with (hn | (hn | hn) | hn) | hn
      · obtain ⟨_, _, h, _⟩ := hb
        rw [h] at hn; cases hn
      · exact hn
      · obtain ⟨_, _, _, _, h⟩ := hrep _ hn
        obtain ⟨_, _, _, h⟩ := isReply_any h
        cases h
      · obtain ⟨_, _, _, h⟩ := abortAll_reply hab _ hn
        cases h
      · rcases hfin with ⟨_, ⟨i, rfl, _, _, h, _⟩, _⟩ | ⟨rfl, _⟩
        · rw [← List.mem_singleton.mp hn] at h
          cases h
        · simp at hn
    rcases hfin with ⟨h1, _, h3⟩ | ⟨_, ⟨n, es, h2, rfl, rfl, rfl⟩ | ⟨s, h2⟩ | ⟨h2, h3⟩⟩
    · rw [h1]
      simp only [reduceCtorEq, exists_false, false_iff, not_or, not_exists, not_false_eq_true, true_and]
      exact fun n hn => h3 n (hin n hn)
    · rw [h2]
      simp only [Res.exc.injEq, exists_eq', true_iff]
      exact .inr ⟨n, by simp⟩
    · exact absurd h2 (hub s)
    · rw [h2]
      simp only [reduceCtorEq, exists_false, false_iff, not_or, not_exists, not_false_eq_true, true_and]
      exact fun n hn => h3 n (hin n hn)

/-- C16: if the message has a type, the handling ends, and user code throws nothing but `std::exception`s, then the
dispatch returns and its last event is `idle`. -/
theorem C16_absorbed (env : Env) (hs : Sane env) (I : Interp σ) (q : Multipart) (m : XMessage) (c : Chan) (t : Str)
    (ha : Accepted env.C env.J env.auth q m) (ht : typeOf m.body.header = some t) (w : World σ)
    (hub : ∀ s, ((dispatch env I q c).run w).1 ≠ .ub s) (hh : ((dispatch env I q c).run w).1 ≠ .hang)
    (hf : ∀ n, Ev.threw (.foreign n) ∈ ((dispatch env I q c).run w).2.out → Ev.threw (.foreign n) ∈ w.out)
    (hw : ∀ n, Ev.threw (.foreign n) ∉ w.out) :
    ((dispatch env I q c).run w).1 = .ok () ∧
      ∃ es i, ((dispatch env I q c).run w).2.out = w.out ++ es ++ [i] ∧ IsStatus env c "idle" m.body.header i := by
  obtain ⟨b, es, fin, _, _, hout, ⟨h1, i, rfl, hi⟩ | ⟨_, ⟨n, es', h2, rfl⟩ | ⟨s, h2⟩ | h2⟩⟩ := C12_bracket env hs I q m c t ha ht w
  · exact ⟨h1, [b] ++ es, i, by rw [hout]; simp, hi⟩
  · exact absurd (hf n (by rw [hout]; simp)) (hw n)
  · exact absurd h2 (hub s)
  · exact absurd h2 hh

/-- An interpreter that throws a `std::exception`: the inspection of the sample interpreter. -/
example : ∃ q, ((dispatch sampleEnv sampleInterp q .shell).run sampleWorld).1 = .ok () ∧
    Ev.threw (.runtime "no documentation") ∈ ((dispatch sampleEnv sampleInterp q .shell).run sampleWorld).2.out := by
  obtain ⟨q, hq⟩ := sampleReq_accepted "inspect_request" (.obj []) (by decide) (by decide) (by decide +kernel)
  obtain ⟨w₁, _, _, hstd, _⟩ := inspect_course sampleEnv_sane sampleInterp .shell hq sampleWorld rfl
    (code := []) (pos := -1) (detail := 0) rfl
  have hc := hstd (.runtime "no documentation") w₁ rfl rfl
  obtain ⟨i, _, ho⟩ := hc.out
  exact ⟨q, hc.ok, by rw [ho]; simp⟩

/-! ## C22 -/

/-- C22: a well-formed shutdown request calls the hook once; when the hook returns, the server is asked to stop, then
`shutdown` is published, then the reply is sent, both with the flag of the request. -/
theorem C22_shutdown (env : Env) (hs : Sane env) (I : Interp σ) (q : Multipart) (m : XMessage) (c : Chan) (restart : Bool)
    (ha : Accepted env.C env.J env.auth q m) (hr : IsReq m .shutdown) (hf : restartField m.body.content = some restart)
    (w : World σ) (hp : ParentsOk w) : ShutdownCourse env I q m c w restart :=
  shutdown_course hs I c ha w hr hf hp

/-- C22: the hook is called exactly once, whatever it does. -/
theorem C22_hook_once (env : Env) (hs : Sane env) (I : Interp σ) (q : Multipart) (m : XMessage) (c : Chan)
    (restart : Bool) (ha : Accepted env.C env.J env.auth q m) (hr : IsReq m .shutdown)
    (hf : restartField m.body.content = some restart) (w : World σ) (hp : ParentsOk w) :
    ∃ es, ((dispatch env I q c).run w).2.out = w.out ++ es ∧ callsIn es = [.shutdown] :=
  (shutdown_shape hs.log (shutdown_course hs I c ha w hr hf hp)).calls (by simp)

/-- C22: a shutdown request without a well-typed flag has no effect. -/
theorem C22_bad (env : Env) (hs : Sane env) (I : Interp σ) (q : Multipart) (m : XMessage) (c : Chan)
    (ha : Accepted env.C env.J env.auth q m) (hr : IsReq m .shutdown) (hf : restartField m.body.content = none)
    (w : World σ) : Handled env m c w [] ((dispatch env I q c).run w) :=
  shutdown_bad hs I c ha w hr hf

/-- C22: if the server is asked to stop while a message is handled, then the message is a shutdown request whose hook
did not throw. -/
theorem C22_only (env : Env) (hs : Sane env) (I : Interp σ) (q : Multipart) (m : XMessage) (c : Chan)
    (ha : Accepted env.C env.J env.auth q m) (w : World σ) (hp : ParentsOk w) (es : List Ev)
    (hout : ((dispatch env I q c).run w).2.out = w.out ++ es) (hstop : Ev.stop ∈ es) :
    IsReq m .shutdown ∧ (∃ b, restartField m.body.content = some b) ∧ (∀ e, Ev.threw e ∉ es) ∧
      es.count .stop = 1 := by
  have hreq : IsReq m .shutdown := by
    cases ht : typeOf m.body.header with
    | none =>
      obtain ⟨w₀, hb, hrun⟩ := untyped hs I c ha w ht
      obtain ⟨b, ⟨_, _, rfl, _⟩, hb2⟩ := hb.out
      rw [hrun] at hout
      simp only [hb2, List.append_cancel_left_eq] at hout
      subst hout
      simp at hstop
    | some t =>
      obtain ⟨b, pre, rep, ab, fin, done, stuck, ⟨_, _, rfl, _⟩, ho, _, hpre, _, hrep, _, hab, _, _, _, _, _, _, hfin⟩ :=
        dispatch_block hs I c ha ht w
      rw [ho] at hout
      obtain rfl := List.append_cancel_left hout
      simp only [List.mem_append, List.mem_singleton] at hstop
      rcases hstop with (hn | (hn | hn) | hn) | hn
      · cases hn
      · obtain ⟨r, hr, hin⟩ := hpre _ hn
        rcases hin with h | ⟨_, _, _, h, _⟩ | ⟨_, h, _⟩ | ⟨_, h⟩ | ⟨_, rfl⟩
        · rcases h with ⟨_, _, _, h, _⟩ | ⟨_, _, h, _⟩ <;> cases h
        · cases h
        · cases h
        · cases h
        · exact hr
      · obtain ⟨_, _, _, _, h⟩ := hrep _ hn
        obtain ⟨_, _, _, h⟩ := isReply_any h
        cases h
      · obtain ⟨_, _, _, h⟩ := abortAll_reply hab _ hn
        cases h
      · rcases hfin with ⟨_, ⟨i, rfl, _, _, h, _⟩, _⟩ | ⟨rfl, _⟩
        · rw [← List.mem_singleton.mp hn] at h; cases h
        · simp at hn
  refine ⟨hreq, ?_⟩
  cases hf : restartField m.body.content with
  | none =>
    obtain ⟨b, i, ⟨_, _, rfl, _⟩, ⟨_, _, rfl, _⟩, ho⟩ := (shutdown_bad hs I c ha w hreq hf).out
    rw [ho] at hout
    obtain rfl := List.append_cancel_left hout
    simp at hstop
  | some restart =>
    obtain ⟨w₁, hat, hok, hstd, hfor, hub, hhang⟩ := shutdown_course hs I c ha w hreq hf hp
    obtain ⟨b, ⟨_, _, rfl, _⟩, hb⟩ := hat.out
    have hk := keeps_user hs.log I.shutdown w₁
    rcases hrun : (I.shutdown.exec (Op.sem env)).run w₁ with ⟨y, w₂⟩
    rw [hrun] at hk
    obtain ⟨outs, ho, hpo⟩ := hk.out
    have hstop' : Ev.stop ∉ outs := fun h => by
      rcases (hpo _ h).output with ⟨_, _, _, h, _⟩ | ⟨_, _, h, _⟩ <;> cases h
    have hthrew' : ∀ e, Ev.threw e ∉ outs := fun e h => by
      rcases (hpo _ h).output with ⟨_, _, _, h, _⟩ | ⟨_, _, h, _⟩ <;> cases h
    simp only at ho
    cases y with
    | ok _ =>
      obtain ⟨n, rep, ⟨_, _, rfl, _⟩, ⟨_, _, rfl, _⟩, hc⟩ := hok w₂ hrun
      obtain ⟨i, ⟨_, _, rfl, _⟩, hi⟩ := hc.out
      rw [hi, ho, hb] at hout
      simp only [List.append_assoc] at hout
      obtain rfl := List.append_cancel_left hout
      refine ⟨⟨_, rfl⟩, ?_, ?_⟩
      · simp [hthrew']
      · simp [List.count_append, List.count_eq_zero_of_not_mem hstop']
    | exc e =>
      exfalso
      cases he : e.isStd with
      | true =>
        obtain ⟨i, ⟨_, _, rfl, _⟩, hi⟩ := (hstd e w₂ hrun he).out
        rw [hi, ho, hb] at hout
        simp only [List.append_assoc] at hout
        obtain rfl := List.append_cancel_left hout
        simp [hstop'] at hstop
      | false =>
        rw [hfor e w₂ hrun he] at hout
        simp only [ho, hb, List.append_assoc] at hout
        obtain rfl := List.append_cancel_left hout
        simp [hstop'] at hstop
    | ub s =>
      exfalso
      rw [hub s w₂ hrun] at hout
      simp only [ho, hb, List.append_assoc] at hout
      obtain rfl := List.append_cancel_left hout
      simp [hstop'] at hstop
    | hang =>
      exfalso
      rw [hhang w₂ hrun] at hout
      simp only [ho, hb, List.append_assoc] at hout
      obtain rfl := List.append_cancel_left hout
      simp [hstop'] at hstop

/-- The hook of the sample interpreter returns: the sample kernel is asked to stop. -/
example : ∃ q, Ev.stop ∈ ((dispatch sampleEnv sampleInterp q .control).run sampleWorld).2.out := by
  obtain ⟨q, hq⟩ := sampleReq_accepted "shutdown_request" (.obj [(lit "restart", .bool true)]) (by decide) (by decide)
    (by decide +kernel)
  obtain ⟨w₁, _, hok, _⟩ := C22_shutdown sampleEnv sampleEnv_sane sampleInterp q _ .control true hq rfl rfl sampleWorld
    sampleWorld_parents
  obtain ⟨n, rep, _, _, hc⟩ := hok w₁ rfl
  obtain ⟨i, _, ho⟩ := hc.out
  exact ⟨q, by rw [ho]; simp⟩

/-! ## C23 -/

/-- C23: an interrupt request produces `interrupt` and an empty answer, whatever its content, and nothing else. -/
theorem C23_interrupt (env : Env) (hs : Sane env) (I : Interp σ) (q : Multipart) (m : XMessage) (c : Chan)
    (ha : Accepted env.C env.J env.auth q m) (hr : IsReq m .interrupt) (w : World σ) (hp : ParentsOk w) :
    ∃ n rep, IsPub env .control (lit "interrupt") (curParent m c w .control).header (.obj []) (.obj []) [] n ∧
      IsReplyWith env c m.ids m.body.header (lit "interrupt_reply") (.obj []) (.obj []) rep ∧
      Handled env m c w [n, rep] ((dispatch env I q c).run w) :=
  interrupt_handled hs I c ha w hr hp

example : ∃ q m, Accepted sampleEnv.C sampleEnv.J sampleEnv.auth q m ∧ IsReq m .interrupt ∧
    m.body.content = .arr [.null] := by
  obtain ⟨q, hq⟩ := sampleReq_accepted "interrupt_request" (.arr [.null]) (by decide) (by decide) (by decide +kernel)
  exact ⟨q, _, hq, rfl, rfl⟩

/-! ## C24 -/

/-- C24: an execute request reaches the interpreter with its fields and the answer comes back with the count set. -/
theorem C24_execute (env : Env) (hs : Sane env) (I : Interp σ) (q : Multipart) (m : XMessage) (c : Chan) (f : ExecFields)
    (ha : Accepted env.C env.J env.auth q m) (hr : IsReq m .execute) (hf : execFields m.body.content = some f)
    (w : World σ) (hp : ParentsOk w) (hc : InInt w.count) (hc' : f.silent = false → InInt (w.count + 1)) :
    ExecCourse env I q m c w f ∧ ∃ es, ((dispatch env I q c).run w).2.out = w.out ++ es ∧
      callsIn es = [.execute (if f.silent then w.count else w.count + 1) f.code f.silent (f.store && !f.silent) f.exprs
        f.allow] := by
  have h := exec_course hs I c ha hr hf hp hc' hc
  obtain ⟨pre, hann, hsh⟩ := exec_shape hs.log h
  exact ⟨h, hsh.calls (announce_no_call hann)⟩

/-- C24: completion. -/
theorem C24_complete (env : Env) (hs : Sane env) (I : Interp σ) (q : Multipart) (m : XMessage) (c : Chan) (code : Str)
    (pos : Int) (ha : Accepted env.C env.J env.auth q m) (hr : IsReq m .complete)
    (hf : completeFields m.body.content = some (code, pos)) (w : World σ) :
    Verbatim env I q m c w (Op.sem env) (.complete code pos) (I.complete code pos) "complete_reply" (· = .obj []) ∧
    ∃ es, ((dispatch env I q c).run w).2.out = w.out ++ es ∧ callsIn es = [.complete code pos] :=
  have h := complete_course hs I c ha w hr hf
  ⟨h, (verbatim_shape (keeps_user hs.log _) h).calls (by simp)⟩

/-- C24: inspection. -/
theorem C24_inspect (env : Env) (hs : Sane env) (I : Interp σ) (q : Multipart) (m : XMessage) (c : Chan) (code : Str)
    (pos detail : Int) (ha : Accepted env.C env.J env.auth q m) (hr : IsReq m .inspect)
    (hf : inspectFields m.body.content = some (code, pos, detail)) (w : World σ) :
    Verbatim env I q m c w (Op.sem env) (.inspect code pos detail) (I.inspect code pos detail) "inspect_reply"
      (· = .obj []) ∧
    ∃ es, ((dispatch env I q c).run w).2.out = w.out ++ es ∧ callsIn es = [.inspect code pos detail] :=
  have h := inspect_course hs I c ha w hr hf
  ⟨h, (verbatim_shape (keeps_user hs.log _) h).calls (by simp)⟩

/-- C24: is_complete. -/
theorem C24_is_complete (env : Env) (hs : Sane env) (I : Interp σ) (q : Multipart) (m : XMessage) (c : Chan) (code : Str)
    (ha : Accepted env.C env.J env.auth q m) (hr : IsReq m .isComplete) (hf : codeField m.body.content = some code)
    (w : World σ) :
    Verbatim env I q m c w (Op.sem env) (.isComplete code) (I.isComplete code) "is_complete_reply" (· = .obj []) ∧
    ∃ es, ((dispatch env I q c).run w).2.out = w.out ++ es ∧ callsIn es = [.isComplete code] :=
  have h := isComplete_course hs I c ha w hr hf
  ⟨h, (verbatim_shape (keeps_user hs.log _) h).calls (by simp)⟩

/-- C24: kernel_info, whose answer also gets the protocol version. -/
theorem C24_kernel_info (env : Env) (hs : Sane env) (I : Interp σ) (q : Multipart) (m : XMessage) (c : Chan)
    (ha : Accepted env.C env.J env.auth q m) (hr : IsReq m .kernelInfo) (w : World σ) :
    KernelInfoCourse env I q m c w ∧
    ∃ es, ((dispatch env I q c).run w).2.out = w.out ++ es ∧ callsIn es = [.kernelInfo] :=
  have h := kernelInfo_course hs I c ha w hr
  ⟨h, (kernelInfo_shape hs.log h).calls (by simp)⟩

/-- C24: debug requests, which go to the debugger with header and content. -/
theorem C24_debug (env : Env) (hs : Sane env) (I : Interp σ) (q : Multipart) (m : XMessage) (c : Chan)
    (d : Json → Json → Prog σ DOp Json) (hd : I.debug = some d)
    (ha : Accepted env.C env.J env.auth q m) (hr : IsReq m .debug) (w : World σ) :
    Verbatim env I q m c w (DOp.sem env I) (.debug m.body.header m.body.content) (d m.body.header m.body.content)
      "debug_reply" Started ∧
    ∃ es, ((dispatch env I q c).run w).2.out = w.out ++ es ∧ callsIn es = [.debug m.body.header m.body.content] :=
  have h := debug_course hs I c ha w hr hd
  ⟨h, (verbatim_shape (keeps_debugger hs.log I _) h).calls (by simp)⟩

/-- C24: a request with a field of another type reaches no user code and has no effect; likewise a debug request when
there is no debugger. -/
theorem C24_bad (env : Env) (hs : Sane env) (I : Interp σ) (q : Multipart) (m : XMessage) (c : Chan)
    (ha : Accepted env.C env.J env.auth q m) (w : World σ)
    (hbad : (IsReq m .execute ∧ execFields m.body.content = none ∧ ¬ ExecWild m.body.content) ∨
      (IsReq m .complete ∧ completeFields m.body.content = none ∧ ¬ CompleteWild m.body.content) ∨
      (IsReq m .inspect ∧ inspectFields m.body.content = none ∧ ¬ InspectWild m.body.content) ∨
      (IsReq m .isComplete ∧ codeField m.body.content = none) ∨ (IsReq m .debug ∧ I.debug = none)) :
    Handled env m c w [] ((dispatch env I q c).run w) := by
  rcases hbad with ⟨hr, hf, hw⟩ | ⟨hr, hf, hw⟩ | ⟨hr, hf, hw⟩ | ⟨hr, hf⟩ | ⟨hr, hf⟩
  · exact execute_bad hs I c ha w hr hf hw
  · exact complete_bad hs I c ha w hr hf hw
  · exact inspect_bad hs I c ha w hr hf hw
  · exact isComplete_bad hs I c ha w hr hf
  · exact nodebug_handled hs I c ha w hr hf

/-- C24: a double that is no `int` in the place of one makes the handling of the request undefined, before user code is
reached. -/
theorem C24_undefined (env : Env) (hs : Sane env) (I : Interp σ) (q : Multipart) (m : XMessage) (c : Chan)
    (ha : Accepted env.C env.J env.auth q m) (w : World σ)
    (hw : (IsReq m .execute ∧ ExecWild m.body.content) ∨ (IsReq m .complete ∧ CompleteWild m.body.content) ∨
      (IsReq m .inspect ∧ InspectWild m.body.content)) :
    (∃ s, ((dispatch env I q c).run w).1 = .ub s) ∧
    ∃ b, IsStatus env c "busy" m.body.header b ∧ ((dispatch env I q c).run w).2.out = w.out ++ [b] := by
  have h : ∃ w₀, Begun env m c w w₀ ∧
      (dispatch env I q c).run w = (.ub "conversion of a double that does not fit", w₀) := by
    rcases hw with ⟨hr, hw⟩ | ⟨hr, hw⟩ | ⟨hr, hw⟩
    · exact execute_wild hs I c ha w hr hw
    · exact complete_wild hs I c ha w hr hw
    · exact inspect_wild hs I c ha w hr hw
  obtain ⟨w₀, hb, hrun⟩ := h
  rw [hrun]
  exact ⟨⟨_, rfl⟩, hb.out⟩

/-- The double 1e10 for the cursor position. -/
example : ∃ q m, Accepted sampleEnv.C sampleEnv.J sampleEnv.auth q m ∧ IsReq m .complete ∧ CompleteWild m.body.content := by
  obtain ⟨q, hq⟩ := sampleReq_accepted "complete_request"
    (.obj [(lit "code", .str (lit "pri")), (lit "cursor_pos", .float 0x4202A05F20000000)])
    (by decide) (by decide) (by decide +kernel)
  exact ⟨q, _, hq, rfl, rfl, rfl, by decide +kernel⟩

/-- The defaults. -/
example : execFields (.obj []) = some ⟨lit "", false, true, 1, .obj [], true, false⟩ ∧
    completeFields (.obj []) = some (lit "", -1) ∧ inspectFields (.obj []) = some (lit "", -1, 0) ∧
    codeField (.obj []) = some (lit "") ∧ restartField (.obj []) = some false := ⟨rfl, rfl, rfl, rfl, rfl⟩

/-- Some fields given, `store_history` overruled by `silent`. -/
example : ∃ q m f, Accepted sampleEnv.C sampleEnv.J sampleEnv.auth q m ∧ IsReq m .execute ∧
    execFields m.body.content = some f ∧
    execCall sampleWorld f = .execute 0 (lit "1+1") true false (.obj []) true := by
  obtain ⟨q, hq⟩ := sampleReq_accepted "execute_request"
    (.obj [(lit "code", .str (lit "1+1")), (lit "silent", .bool true), (lit "store_history", .bool true)])
    (by decide) (by decide) (by decide +kernel)
  exact ⟨q, _, _, hq, rfl, rfl, by decide⟩

/-- A field of the wrong type. -/
example : completeFields (.obj [(lit "code", .int 3)]) = none := rfl

/-! ## C25 -/

/-- C25: the answer to comm_info lists exactly the registered comms with their targets, restricted to the target asked
for. -/
theorem C25_comm_info (env : Env) (hs : Sane env) (I : Interp σ) (q : Multipart) (m : XMessage) (c : Chan) (wanted : Str)
    (ha : Accepted env.C env.J env.auth q m) (hr : IsReq m .commInfo) (hf : targetField m.body.content = some wanted)
    (w : World σ) (hl : RegistryLive w.comm)
    (hu : env.eh = .strict → ∀ id n, registeredTarget w.comm id = some n → Utf8 id ∧ Utf8 n) :
    ∃ j rep, ListsComms w.comm wanted j ∧
      IsReplyWith env c m.ids m.body.header (lit "comm_info_reply") (.obj [])
        (.obj [(lit "comms", j), (lit "status", .str (lit "ok"))]) rep ∧
      Handled env m c w [rep] ((dispatch env I q c).run w) :=
  commInfo_handled hs I c ha hr hf hl hu

/-- C25: a target name that is not a text gets no answer. -/
theorem C25_bad (env : Env) (hs : Sane env) (I : Interp σ) (q : Multipart) (m : XMessage) (c : Chan)
    (ha : Accepted env.C env.J env.auth q m) (hr : IsReq m .commInfo) (hf : targetField m.body.content = none)
    (w : World σ) : Handled env m c w [] ((dispatch env I q c).run w) :=
  commInfo_bad hs I c ha w hr hf

/-- Two comms, one of the target asked for. -/
example : ∃ q m j rep, Accepted sampleEnv.C sampleEnv.J sampleEnv.auth q m ∧ ListsComms sampleComms (lit "u") j ∧
    Handled sampleEnv m .shell { sampleWorld with comm := sampleComms } [rep]
      ((dispatch sampleEnv sampleInterp q .shell).run { sampleWorld with comm := sampleComms }) := by
  obtain ⟨q, hq⟩ := sampleReq_accepted "comm_info_request" (.obj [(lit "target_name", .str (lit "u"))]) (by decide)
    (by decide) (by decide +kernel)
  obtain ⟨j, rep, h1, _, h2⟩ := C25_comm_info sampleEnv sampleEnv_sane sampleInterp q _ .shell (lit "u") hq rfl rfl
    { sampleWorld with comm := sampleComms } sampleComms_live fun _ => sampleComms_utf8
  exact ⟨q, _, j, rep, hq, h1, h2⟩

/-- What the listing has to be in that case. -/
example : ListsComms sampleComms (lit "u") (.obj [(lit "c2", .obj [(lit "target_name", .str (lit "u"))])]) := by
  refine ⟨rfl, fun id => ?_⟩
  by_cases h1 : lit "c1" = id
  · subst h1; decide
  · by_cases h2 : lit "c2" = id
    · subst h2; decide
    · have h3 : alGet id sampleComms.reg = none := by simp [sampleComms, alGet, h1, h2]
      simp [registeredTarget, h3, Json.find?, Json.lookup, h2]

/-! ## C27 -/

/-- C27: while a message is handled on channel `c`, everything published by user code (and every input request) is
attributed to the latest shell request: the message itself if `c` is the shell channel, else the one remembered.
The remaining publications are the two status messages, attributed to the message, and the notifications of shutdown
and interrupt requests, attributed to the latest control request. -/
theorem C27_attribution (env : Env) (hs : Sane env) (I : Interp σ) (q : Multipart) (m : XMessage) (c : Chan) (t : Str)
    (ha : Accepted env.C env.J env.auth q m) (ht : typeOf m.body.header = some t) (w : World σ) :
    ∃ es, ((dispatch env I q c).run w).2.out = w.out ++ es ∧ ∀ e ∈ es, ∀ c' p wire, e = .pub c' p wire →
      (c' = c ∧ p.body.parent = m.body.header ∧ (IsStatus env c "busy" m.body.header e ∨ IsStatus env c "idle" m.body.header e)) ∨
      (IsOutput env (if c = .shell then ⟨m.ids, m.body.header⟩ else w.parent .shell) e) ∨
      ∃ r, IsReq m r ∧ IsNotice env r (if c = .control then m.body.header else (w.parent .control).header) e := by
  obtain ⟨b, pre, rep, ab, fin, done, stuck, hb, ho, _, hpre, _, hrep, _, hab, _, _, _, _, _, _, hfin⟩ :=
    dispatch_block hs I c ha ht w
  refine ⟨_, ho, ?_⟩
  rintro e he c' p wire rfl
  have hstat : ∀ s, IsStatus env c s m.body.header (.pub c' p wire) → c' = c ∧ p.body.parent = m.body.header := by
    rintro s ⟨_, _, h, _, h2, _⟩
    cases h
    exact ⟨rfl, h2⟩
  simp only [List.mem_append, List.mem_singleton] at he
  rcases he with (hn | (hn | hn) | hn) | hn
  · rw [← hn] at hb
    obtain ⟨h1, h2⟩ := hstat _ hb
    exact .inl ⟨h1, h2, .inl hb⟩
  · obtain ⟨r, hr, hin⟩ := hpre _ hn
    rcases hin with h | h | ⟨_, h, _⟩ | ⟨_, h⟩ | ⟨h, _⟩
    · refine .inr (.inl ?_)
      have : curParent m c w .shell = if c = .shell then ⟨m.ids, m.body.header⟩ else w.parent .shell := by
        unfold curParent; cases c <;> rfl
      rwa [← this]
    · refine .inr (.inr ⟨r, hr, ?_⟩)
      have : (curParent m c w .control).header = if c = .control then m.body.header else (w.parent .control).header := by
        unfold curParent; cases c <;> rfl
      rwa [← this]
    · cases h
    · cases h
    · cases h
  · obtain ⟨_, _, _, _, h⟩ := hrep _ hn
    obtain ⟨_, _, _, h⟩ := isReply_any h
    cases h
  · obtain ⟨_, _, _, h⟩ := abortAll_reply hab _ hn
    cases h
  · rcases hfin with ⟨_, ⟨i, rfl, hi⟩, _⟩ | ⟨rfl, _⟩
    · rw [← List.mem_singleton.mp hn] at hi
      obtain ⟨h1, h2⟩ := hstat _ hi
      exact .inl ⟨h1, h2, .inr hi⟩
    · simp at hn

/-- A control request while another request is remembered on the shell channel. -/
example : ∃ q es, ((dispatch sampleEnv sampleInterp q .control).run
    { sampleWorld with parent := fun _ => ⟨[lit "other"], .obj [(lit "msg_id", .str (lit "m0"))]⟩ }).2.out =
    sampleWorld.out ++ es := by
  obtain ⟨q, hq⟩ := sampleReq_accepted "kernel_info_request" (.obj []) (by decide) (by decide) (by decide +kernel)
  obtain ⟨es, h, _⟩ := C27_attribution sampleEnv sampleEnv_sane sampleInterp q _ .control (lit "kernel_info_request") hq
    rfl { sampleWorld with parent := fun _ => ⟨[lit "other"], .obj [(lit "msg_id", .str (lit "m0"))]⟩ }
  exact ⟨q, es, h⟩

end Xeus
