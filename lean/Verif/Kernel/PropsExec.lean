import Verif.Kernel.Sessions
import Verif.Kernel.Sample

/-!
# Properties C17–C21: execute requests

Only the property theorems and the `example`s that instantiate their hypotheses.
-/

namespace Xeus

open Spec K

variable {σ : Type}

/-! ## C17 -/

/-- C17: an accepted message adds one to the counter if it is a well-formed non-silent execute request, and that is
the number shown to the interpreter; any other message leaves the counter alone.  This holds whatever user code does,
as long as the counter does not overflow. -/
theorem C17_step (env : Env) (hs : Sane env) (I : Interp σ) (q : Multipart) (m : XMessage) (c : Chan)
    (ha : Accepted env.C env.J env.auth q m) (w : World σ) (hp : ParentsOk w) (hc : InInt w.count)
    (hc' : Counts m → InInt (w.count + 1)) :
    (Counts m → ((dispatch env I q c).run w).2.count = w.count + 1 ∧
      ∃ es, ((dispatch env I q c).run w).2.out = w.out ++ es ∧ shownCounts es = [w.count + 1]) ∧
    (¬ Counts m → ((dispatch env I q c).run w).2.count = w.count ∧
      ∃ es, ((dispatch env I q c).run w).2.out = w.out ++ es ∧ shownCounts es = []) :=
  dispatch_count hs I c ha hp hc hc'

/-- C17: after a sequence of messages the counter has grown by the number `n` of well-formed non-silent execute requests
among them, and these were shown to the interpreter with the numbers following the initial counter, in order. -/
theorem C17_counter (env : Env) (hs : Sane env) (I : Interp σ) (xs : List (Multipart × Chan)) (n : Nat)
    (hn : Tally env xs n) (w w' : World σ) (hp : ParentsOk w) (hc : InInt w.count)
    (hrun : (session env I xs).run w = (.ok (), w')) :
    w'.count = w.count + n ∧
      ∃ es, w'.out = w.out ++ es ∧ shownCounts es = (List.range n).map fun i : Nat => w.count + 1 + (i : Int) := by
  induction hn generalizing w with
  | nil =>
    simp only [session, K.run_pure, Prod.mk.injEq, true_and] at hrun
    subst hrun
    exact ⟨by simp, [], by simp, rfl⟩
  | @counted q m c r n ha hm _ ih =>
    rw [run_session_cons] at hrun
    have hov : InInt (w.count + 1) := by
      by_cases h : InInt (w.count + 1)
      · exact h
      · obtain ⟨hr, f, hf, hsil⟩ := hm
        obtain ⟨s, hub⟩ := exec_overflow hs I c ha hr hf hsil h
        rcases hd : (dispatch env I q c).run w with ⟨y, w₁⟩
        rw [hd] at hub hrun
        simp only at hub
        subst hub
        rw [K.andThen_ub] at hrun
        simp at hrun
    obtain ⟨h1, es, h2, h3⟩ := (dispatch_count hs I c ha hp hc fun _ => hov).1 hm
    have hp' := parentsOk_dispatch hs I q c hp
    rcases hd : (dispatch env I q c).run w with ⟨y, w₁⟩
    simp only [hd] at h1 h2 hp' hrun
    cases y with
    | ok _ =>
      rw [K.andThen_ok] at hrun
      obtain ⟨h4, es', h5, h6⟩ := ih w₁ hp' (by rw [h1]; exact hov) hrun
      refine ⟨by rw [h4, h1]; omega, es ++ es', by rw [h5, h2]; simp, ?_⟩
      rw [shownCounts_append, h3, h6, h1, List.range_succ_eq_map]
      simp only [List.map_cons, List.map_map, List.singleton_append, List.cons.injEq]
      refine ⟨by simp, List.map_congr_left fun i _ => ?_⟩
      simp only [Function.comp]
      omega
    | exc e => rw [K.andThen_exc] at hrun; simp at hrun
    | ub s => rw [K.andThen_ub] at hrun; simp at hrun
    | hang => rw [K.andThen_hang] at hrun; simp at hrun
  | @other q c r n hno _ ih =>
    rw [run_session_cons] at hrun
    rcases dispatch_trichotomy (env := env) I q c w with ⟨_, hd⟩ | ⟨_, s, hd⟩ | ⟨m, ha⟩
    · simp only [hd, K.andThen_ok] at hrun
      exact ih w hp hc hrun
    · simp only [hd, K.andThen_ub] at hrun
      simp at hrun
    · have hm := hno m ha
      obtain ⟨h1, es, h2, h3⟩ := (dispatch_count hs I c ha hp hc fun h => absurd h hm).2 hm
      have hp' := parentsOk_dispatch hs I q c hp
      rcases hd : (dispatch env I q c).run w with ⟨y, w₁⟩
      simp only [hd] at h1 h2 hp' hrun
      cases y with
      | ok _ =>
        rw [K.andThen_ok] at hrun
        obtain ⟨h4, es', h5, h6⟩ := ih w₁ hp' (by rw [h1]; exact hc) hrun
        exact ⟨by rw [h4, h1], es ++ es', by rw [h5, h2]; simp, by rw [shownCounts_append, h3, h6, h1]; rfl⟩
      | exc e => rw [K.andThen_exc] at hrun; simp at hrun
      | ub s => rw [K.andThen_ub] at hrun; simp at hrun
      | hang => rw [K.andThen_hang] at hrun; simp at hrun

/-- Every sequence has a tally, so that the theorem applies to all of them. -/
theorem C17_tally_exists (env : Env) : ∀ xs : List (Multipart × Chan), ∃ n, Tally env xs n
  | [] => ⟨0, .nil⟩
  | (q, c) :: r => by
    obtain ⟨n, hn⟩ := C17_tally_exists env r
    by_cases h : ∃ m, Accepted env.C env.J env.auth q m ∧ Counts m
    · obtain ⟨m, h1, h2⟩ := h
      exact ⟨n + 1, .counted h1 h2 hn⟩
    · exact ⟨n, .other (fun m h1 h2 => h ⟨m, h1, h2⟩) hn⟩

/-- C17: a kernel counts from 1, whatever its interpreter did when it was configured. -/
theorem C17_from_start (env : Env) (hs : Sane env) (I : Interp σ) (conf : Prog σ DOp Unit) (xs : List (Multipart × Chan)) (n : Nat)
    (hn : Tally env xs n) (s : σ) (q₁ q₂ : List Multipart) (w' : World σ)
    (hrun : (life env I conf xs).run (World.initial s q₁ q₂) = (.ok (), w')) :
    w'.count = n ∧ shownCounts w'.out = (List.range n).map fun i : Nat => 1 + (i : Int) := by
  have hu := keeps_debugger hs.log I conf (World.initial s q₁ q₂)
  simp only [life, configure, K.run_bind] at hrun
  revert hrun hu
  rcases (conf.exec (DOp.sem env I)).run (World.initial s q₁ q₂) with ⟨_ | _ | _ | _, w₀⟩ <;> intro hu hrun
  case ok =>
    rw [K.andThen_ok, run_start] at hrun
    revert hrun
    rcases serializePub env.C env.J env.auth env.eh (startMessage env w₀) with wire | _ | _ | _ <;> intro hrun
    case ok =>
      rw [K.andThen_ok, K.andThen_ok] at hrun
      obtain ⟨e₀, ho, he⟩ := hu.out
      have hpar : ParentsOk { tick w₀ with out := (tick w₀).out ++ [.pub .shell (startMessage env w₀) wire] } := by
        intro c
        show Parsed (w₀.parent c).header
        rw [hu.parent]
        exact initial_parents s q₁ q₂ c
      have hcnt : (tick w₀).count = 0 := hu.count
      obtain ⟨h1, es, h2, h3⟩ := C17_counter env hs I xs n hn _ w' hpar (by show InInt (tick w₀).count; rw [hcnt]; decide) hrun
      have hz : shownCounts w₀.out = [] := by
        rw [ho]
        refine shownCounts_none fun k code store exprs allow hm => ?_
        have := he _ (by simpa [World.initial] using hm)
        cases this
      simp only [hcnt] at h1 h3
      refine ⟨by simpa using h1, ?_⟩
      rw [h2, shownCounts_append, shownCounts_append, h3]
      simp only [tick, hz]
      simp [shownCounts]
    all_goals simp at hrun
  all_goals simp at hrun

/-- One counted and one uncounted message. -/
example : ∃ q₁ q₂, Tally sampleEnv [(q₁, .shell), (q₂, .shell)] 1 := by
  obtain ⟨q₁, h₁⟩ := sampleReq_accepted "execute_request" (.obj []) (by decide) (by decide) (by decide +kernel)
  obtain ⟨q₂, h₂⟩ := sampleReq_accepted "execute_request" (.obj [(lit "silent", .bool true)]) (by decide) (by decide)
    (by decide +kernel)
  refine ⟨q₁, q₂, .counted h₁ ⟨rfl, _, rfl, rfl⟩ (.other ?_ .nil)⟩
  intro m hm
  have : m = sampleReq "execute_request" (.obj [(lit "silent", .bool true)]) := by
    have e1 := accepted_ok _ _ _ _ _ hm
    rw [accepted_ok _ _ _ _ _ h₂] at e1
    exact (Res.ok.inj e1).symm
  subst this
  rintro ⟨_, f, hf, hsil⟩
  cases hf
  exact absurd hsil (by decide)

/-! ## C18 -/

/-- C18: the events of a well-formed execute request, in order, whatever user code does. -/
theorem C18_shape (env : Env) (hs : Sane env) (I : Interp σ) (q : Multipart) (m : XMessage) (c : Chan) (f : ExecFields)
    (ha : Accepted env.C env.J env.auth q m) (hr : IsReq m .execute) (hf : execFields m.body.content = some f)
    (w : World σ) (hp : ParentsOk w) (hc : InInt w.count) (hc' : f.silent = false → InInt (w.count + 1)) :
    ExecShape env m c w f ((dispatch env I q c).run w) :=
  exec_final hs.log (exec_course hs I c ha hr hf hp hc' hc)

/-- C18: a non-silent request publishes `execute_input` with the code and the new count directly after `busy`, and every
reply sent to it comes after the output of the interpreter; the first reply is the one to the request and carries that
count (the others are those to the aborted requests). -/
theorem C18_announced (env : Env) (hs : Sane env) (I : Interp σ) (q : Multipart) (m : XMessage) (c : Chan) (f : ExecFields)
    (ha : Accepted env.C env.J env.auth q m) (hr : IsReq m .execute) (hf : execFields m.body.content = some f)
    (hsil : f.silent = false) (w : World σ) (hp : ParentsOk w) (hc : InInt w.count) (hc' : InInt (w.count + 1)) :
    ∃ b inp outs tl, ((dispatch env I q c).run w).2.out = w.out ++ ([b, inp, .call (execCall w f)] ++ outs ++ tl) ∧
      IsStatus env c "busy" m.body.header b ∧
      IsPub env .shell (lit "execute_input") (shellParent m c w) (.obj [])
        (.obj [(lit "code", .str f.code), (lit "execution_count", .int (w.count + 1))]) [] inp ∧
      (∀ e ∈ outs, IsOutput env (curParent m c w .shell) e) ∧
      (∀ e ∈ tl, ¬ IsOutput env (curParent m c w .shell) e) ∧ (∀ e ∈ outs, ¬ AnyReply e) ∧
      (∀ r rs, repliesIn tl = r :: rs → ∃ md j,
        IsReplyWith env c m.ids m.body.header (lit "execute_reply") md j r ∧
        j.find? (lit "execution_count") = some (.int (w.count + 1))) := by
  obtain ⟨b, pre, outs, thr, rep, ab, fin, done, hout, hb, hann, ho, hthr, hrep, hab, hfin, _⟩ :=
    C18_shape env hs I q m c f ha hr hf w hp hc fun _ => hc'
  unfold ExecAnnounce at hann
  rw [hsil] at hann
  simp only [Bool.false_eq_true, if_false] at hann
  obtain ⟨inp, rfl, hinp⟩ := hann
  refine ⟨b, inp, outs, thr ++ rep ++ ab ++ fin, by rw [hout]; simp, hb, hinp, ho, ?_, fun e he =>
    output_not_reply (ho e he), ?_⟩
  rotate_left
  · intro r rs hrs
    have hthr' : repliesIn thr = [] := by
      rcases hthr with rfl | ⟨x, rfl, _⟩
      · rfl
      · rfl
    rcases hrep with ⟨rfl, rfl, _⟩ | ⟨r', md, j, rfl, hr', hj, _⟩
    · have hfin' : repliesIn fin = [] := by
        rcases hfin with ⟨_, i, rfl, hi⟩ | ⟨_, rfl⟩
        · exact repliesIn_none fun e he => by
            rw [← List.mem_singleton.mp he] at hi; exact isStatus_not_reply hi
        · rfl
      simp [repliesIn_append, hthr', hfin'] at hrs
    · simp only [repliesIn_append, hthr', reply_one (isReplyWith_isReply hr')] at hrs
      simp at hrs
      rw [← hrs.1]
      exact ⟨md, j, hr', by rw [hj]; simp [execCount, hsil]⟩
  intro e he hoe
  simp only [List.mem_append] at he
  rcases he with ((he | he) | he) | he
  · rcases hthr with rfl | ⟨x, rfl, _⟩
    · simp at he
    · rw [List.mem_singleton.mp he] at hoe
      rcases hoe with ⟨_, _, _, h, _⟩ | ⟨_, _, h, _⟩ <;> cases h
  · rcases hrep with ⟨rfl, _⟩ | ⟨r, _, _, rfl, hr, _⟩
    · simp at he
    · rw [← List.mem_singleton.mp he] at hr
      exact output_not_reply hoe (isReply_any (isReplyWith_isReply hr))
  · exact output_not_reply hoe (abortAll_reply hab _ he)
  · rcases hfin with ⟨_, i, rfl, hi⟩ | ⟨_, rfl⟩
    · rw [← List.mem_singleton.mp he] at hi
      exact output_not_status hoe (isStatus_any hi)
    · simp at he

/-- C18: a silent request calls the interpreter directly after `busy`, with the unchanged counter, and the counter stays
unchanged. -/
theorem C18_silent (env : Env) (hs : Sane env) (I : Interp σ) (q : Multipart) (m : XMessage) (c : Chan) (f : ExecFields)
    (ha : Accepted env.C env.J env.auth q m) (hr : IsReq m .execute) (hf : execFields m.body.content = some f)
    (hsil : f.silent = true) (w : World σ) (hp : ParentsOk w) (hc : InInt w.count) :
    ((dispatch env I q c).run w).2.count = w.count ∧
    ∃ b rest, ((dispatch env I q c).run w).2.out =
        w.out ++ ([b, .call (.execute w.count f.code true false f.exprs f.allow)] ++ rest) ∧
      IsStatus env c "busy" m.body.header b ∧
      ∀ ids h md j r, r ∈ rest → IsReplyWith env c ids h (lit "execute_reply") md j r → 
        j.find? (lit "execution_count") = some (.int w.count) := by
  obtain ⟨b, pre, outs, thr, rep, ab, fin, done, hout, hb, hann, ho, hthr, hrep, hab, hfin, hcnt, _⟩ :=
    C18_shape env hs I q m c f ha hr hf w hp hc (by simp [hsil])
  unfold ExecAnnounce at hann
  rw [if_pos hsil] at hann
  subst hann
  have hcount : execCount w f = w.count := by simp [execCount, hsil]
  have hcall : execCall w f = .execute w.count f.code true false f.exprs f.allow := by
    simp [execCall, hcount, hsil]
  refine ⟨by rw [hcnt, hcount], b, outs ++ thr ++ rep ++ ab ++ fin, by rw [hout, hcall]; simp, hb, ?_⟩
  intro ids h md j r he hj
  have hany := isReply_any (isReplyWith_isReply hj)
  simp only [List.mem_append] at he
  rcases he with (((he | he) | he) | he) | he
  · exact absurd hany (output_not_reply (ho _ he))
  · rcases hthr with rfl | ⟨x, rfl, _⟩
    · simp at he
    · obtain ⟨_, _, _, h⟩ := hany
      rw [List.mem_singleton.mp he] at h
      cases h
  · rcases hrep with ⟨rfl, _⟩ | ⟨r', md', j', rfl, hr', hj', _⟩
    · simp at he
    · rw [← List.mem_singleton.mp he] at hr'
      obtain ⟨_, _, h1, _, _, _, _, h2, _⟩ := hj
      obtain ⟨_, _, h3, _, _, _, _, h4, _⟩ := hr'
      rw [h1] at h3
      cases h3
      rw [← h2, h4, hj', hcount]
  · exfalso
    rcases hrep with ⟨_, rfl, _⟩ | ⟨r', md', j', rfl, hr', hj', _, haborts⟩
    · simp at he
    · obtain ⟨s, _, h, _⟩ := haborts (.inr (by rintro rfl; simp at he))
      rw [hsil] at h
      cases h
  · rcases hfin with ⟨_, i, rfl, hi⟩ | ⟨_, rfl⟩
    · rw [← List.mem_singleton.mp he] at hi
      exact absurd hany (isStatus_not_reply hi)
    · simp at he

/-- A non-silent and a silent request. -/
example : ∃ q₁ q₂ m₁ m₂ f₁ f₂, Accepted sampleEnv.C sampleEnv.J sampleEnv.auth q₁ m₁ ∧
    Accepted sampleEnv.C sampleEnv.J sampleEnv.auth q₂ m₂ ∧ IsReq m₁ .execute ∧ IsReq m₂ .execute ∧
    execFields m₁.body.content = some f₁ ∧ execFields m₂.body.content = some f₂ ∧ f₁.silent = false ∧
    f₂.silent = true := by
  obtain ⟨q₁, h₁⟩ := sampleReq_accepted "execute_request" (.obj [(lit "code", .str (lit "x"))]) (by decide) (by decide)
    (by decide +kernel)
  obtain ⟨q₂, h₂⟩ := sampleReq_accepted "execute_request" (.obj [(lit "silent", .bool true)]) (by decide) (by decide)
    (by decide +kernel)
  exact ⟨q₁, q₂, _, _, _, _, h₁, h₂, rfl, rfl, rfl, rfl, rfl, rfl⟩

/-! ## C19 -/

/-- C19: an execute request adds its entry to the history exactly if a reply is sent. -/
theorem C19_execute (env : Env) (hs : Sane env) (I : Interp σ) (q : Multipart) (m : XMessage) (c : Chan) (f : ExecFields)
    (ha : Accepted env.C env.J env.auth q m) (hr : IsReq m .execute) (hf : execFields m.body.content = some f)
    (w : World σ) (hp : ParentsOk w) (hc : InInt w.count) (hc' : f.silent = false → InInt (w.count + 1)) :
    ∃ es, ((dispatch env I q c).run w).2.out = w.out ++ es ∧
      ((repliesIn es ≠ [] ∧ ((dispatch env I q c).run w).2.hist = w.hist ++
          (if f.store && !f.silent then [⟨lit "0", intToString f.line, f.code, []⟩] else [])) ∨
       (repliesIn es = [] ∧ ((dispatch env I q c).run w).2.hist = w.hist)) := by
  obtain ⟨b, pre, outs, thr, rep, ab, fin, done, hout, hb, hann, ho, hthr, hrep, hab, hfin, _⟩ :=
    C18_shape env hs I q m c f ha hr hf w hp hc hc'
  refine ⟨_, hout, ?_⟩
  rcases hrep with ⟨rfl, rfl, hh, _⟩ | ⟨r, md, j, rfl, hrep, _, hh, _⟩
  · refine .inr ⟨repliesIn_none fun e he => ?_, hh⟩
    simp only [List.append_nil, List.mem_append, List.mem_singleton] at he
    rcases he with ((((he | he) | he) | he) | he) | he
    · rw [← he] at hb; exact isStatus_not_reply hb
    · exact announce_no_reply hann e he
    · subst he; rintro ⟨_, _, _, h⟩; cases h
    · exact output_not_reply (ho e he)
    · rcases hthr with rfl | ⟨x, rfl, _⟩
      · simp at he
      · rw [List.mem_singleton.mp he]; rintro ⟨_, _, _, h⟩; cases h
    · rcases hfin with ⟨_, i, rfl, hi⟩ | ⟨_, rfl⟩
      · rw [← List.mem_singleton.mp he] at hi; exact isStatus_not_reply hi
      · simp at he
  · refine .inl ⟨?_, hh⟩
    intro hnil
    have : r ∈ repliesIn ([b] ++ pre ++ [.call (execCall w f)] ++ outs ++ thr ++ [r] ++ ab ++ fin) :=
      mem_repliesIn.2 ⟨by simp, isReply_any (isReplyWith_isReply hrep)⟩
    rw [hnil] at this
    simp at this

/-- C19: no other message changes the history. -/
theorem C19_other (env : Env) (hs : Sane env) (I : Interp σ) (q : Multipart) (m : XMessage) (c : Chan)
    (ha : Accepted env.C env.J env.auth q m) (w : World σ)
    (hno : ¬ IsReq m .execute ∨ execFields m.body.content = none) : ((dispatch env I q c).run w).2.hist = w.hist := by
  by_cases hr : IsReq m .execute
  · by_cases hw : ExecWild m.body.content
    · obtain ⟨w₀, hb, hrun⟩ := execute_wild hs I c ha w hr hw
      rw [hrun]; exact hb.hist
    · exact (execute_bad hs I c ha w hr (hno.resolve_left (fun h => h hr)) hw).hist
  · cases ht : typeOf m.body.header with
    | none =>
      obtain ⟨w₀, hb, hrun⟩ := untyped hs I c ha w ht
      rw [hrun]; exact hb.hist
    | some t =>
      obtain ⟨_, _, _, _, _, _, _, _, _, _, _, _, _, _, _, _, _, _, _, ⟨l, hl, hl'⟩, _⟩ := dispatch_block hs I c ha ht w
      rw [hl, hl' hr, List.append_nil]

/-- C19: no sequence of messages reorders or truncates the history, even if it ends in an exception. -/
theorem C19_append_only (env : Env) (hs : Sane env) (I : Interp σ) (xs : List (Multipart × Chan)) (w : World σ) :
    ∃ l, ((session env I xs).run w).2.hist = w.hist ++ l := by
  refine session_invariant (P := fun w' => ∃ l, w'.hist = w.hist ++ l) (fun q c w' h => ?_) xs w ⟨[], by simp⟩
  obtain ⟨l, hl⟩ := h
  rcases dispatch_trichotomy (env := env) I q c w' with ⟨_, hd⟩ | ⟨_, s, hd⟩ | ⟨m, ha⟩
  · exact ⟨l, by rw [hd]; exact hl⟩
  · exact ⟨l, by rw [hd]; exact hl⟩
  · cases ht : typeOf m.body.header with
    | none =>
      obtain ⟨w₀, hb, hrun⟩ := untyped hs I c ha w' ht
      exact ⟨l, by rw [hrun]; exact hb.hist.trans hl⟩
    | some t =>
      obtain ⟨_, _, _, _, _, _, _, _, _, _, _, _, _, _, _, _, _, _, _, ⟨l', hl', _⟩, _⟩ :=
        dispatch_block hs I c ha ht w'
      exact ⟨l ++ l', by rw [hl', hl, List.append_assoc]⟩

/-! ## C20 -/

/-- C20: if a non-silent request with `stop_on_error` is answered with status `error`, then every waiting multipart is
dealt with in order (one error reply per well-formed one, to its own sender), none is executed, and none is left. -/
theorem C20_abort (env : Env) (hs : Sane env) (I : Interp σ) (q : Multipart) (m : XMessage) (c : Chan) (f : ExecFields)
    (ha : Accepted env.C env.J env.auth q m) (hr : IsReq m .execute) (hf : execFields m.body.content = some f)
    (w : World σ) (hp : ParentsOk w) (hc : InInt w.count) (hc' : InInt (w.count + 1))
    (hsil : f.silent = false) (hstop : f.stop = true)
    (hret : Returns env m c w (w.count + 1) (execCall w f) (Op.sem env) (execProg I w f) fun j =>
      j.isObj = true ∧ Printable env.eh j ∧ strField j "status" "error" = some (lit "error"))
    (hq : ∀ q' ∈ w.shellQ, Abortable env q') :
    ((dispatch env I q c).run w).1 = .ok () ∧ ((dispatch env I q c).run w).2.shellQ = [] ∧
    ∃ es rep ab, ((dispatch env I q c).run w).2.out = w.out ++ es ∧ repliesIn es = rep :: ab ∧
      IsReply env c m.ids m.body.header (lit "execute_reply") rep ∧ AbortAll env w.shellQ ab ∧
      callsIn es = [execCall w f] := by
  have hcourse := exec_course hs I c ha hr hf hp (fun _ => hc') hc
  obtain ⟨_, hann', hshape⟩ := exec_shape hs.log hcourse
  obtain ⟨es₁, hes₁, hcalls⟩ := hshape.calls (announce_no_call hann')
  obtain ⟨w₁, pre, hat, hann, _, _, _, hok, _⟩ := hcourse
  have hcnt : execCount w f = w.count + 1 := by simp [execCount, hsil]
  obtain ⟨j, w₂, hrun, ho, hpj, hst⟩ := hret _ _ (hcnt ▸ hat)
  have hk := keeps_user hs.log (execProg I w f) w₁
  rw [hrun] at hk
  obtain ⟨j', _, hpj', ⟨_, md, rep, _, hrep, hend⟩ | ⟨h, _⟩⟩ := hok j w₂ _ hrun (.inl ho) hst
  · obtain ⟨done, stuck, rest, ab, hsq, _, habs, _, hstuck, hrest, hend, _⟩ := hend.2 ⟨hsil, hstop, rfl⟩
    rw [hk.shellQ, hat.shellQ] at hsq
    have hnil : stuck = [] := by
      cases stuck with
      | nil => rfl
      | cons q' r => exact absurd (hq q' (by rw [hsq]; simp)) (hstuck q' (by simp))
    have hnil' := hrest hnil
    subst hnil hnil'
    have hc := hend (by simp)
    obtain ⟨b, outs, i, hb, hi, hpo, hout⟩ := concludes_events hat hk (by rfl) hc
    rw [hes₁] at hout
    obtain rfl := List.append_cancel_left hout
    refine ⟨hc.ok, hc.shellQ, _, rep, ab, hes₁, ?_, isReplyWith_isReply hrep, ?_, hcalls⟩
    · rw [events_replies hb hi (announce_no_reply hann) hpo, repliesIn_append, reply_one (isReplyWith_isReply hrep),
        repliesIn_all (abortAll_reply habs)]
      rfl
    · rw [hsq]; simpa using habs
  · exact absurd (hpj' hpj) h

/-- C20: if one of the waiting multiparts (here `bad`) is neither abortable nor undefined, then those before it are
dealt with, it is lost without an answer, and those after it stay in the queue. -/
theorem C20_stuck (env : Env) (hs : Sane env) (I : Interp σ) (q : Multipart) (m : XMessage) (c : Chan) (f : ExecFields)
    (ha : Accepted env.C env.J env.auth q m) (hr : IsReq m .execute) (hf : execFields m.body.content = some f)
    (w : World σ) (hp : ParentsOk w) (hc : InInt w.count) (hc' : InInt (w.count + 1))
    (hsil : f.silent = false) (hstop : f.stop = true)
    (hret : Returns env m c w (w.count + 1) (execCall w f) (Op.sem env) (execProg I w f) fun j =>
      j.isObj = true ∧ Printable env.eh j ∧ strField j "status" "error" = some (lit "error"))
    (good : List Multipart) (bad : Multipart) (later : List Multipart) (hw : w.shellQ = good ++ bad :: later)
    (hq : ∀ q' ∈ good, Abortable env q') (hb : ¬ Abortable env bad) (hu : ¬ Undefined env.J env.auth bad) :
    ((dispatch env I q c).run w).1 = .ok () ∧ ((dispatch env I q c).run w).2.shellQ = later ∧
    ∃ es rep ab, ((dispatch env I q c).run w).2.out = w.out ++ es ∧ repliesIn es = rep :: ab ∧
      IsReply env c m.ids m.body.header (lit "execute_reply") rep ∧ AbortAll env good ab := by
  obtain ⟨w₁, pre, hat, hann, _, _, _, hok, _⟩ := exec_course hs I c ha hr hf hp (fun _ => hc') hc
  have hcnt : execCount w f = w.count + 1 := by simp [execCount, hsil]
  obtain ⟨j, w₂, hrun, ho, hpj, hst⟩ := hret _ _ (hcnt ▸ hat)
  have hk := keeps_user hs.log (execProg I w f) w₁
  rw [hrun] at hk
  obtain ⟨j', _, hpj', ⟨_, md, rep, _, hrep, hend⟩ | ⟨h, _⟩⟩ := hok j w₂ _ hrun (.inl ho) hst
  · obtain ⟨done, stuck, rest, ab, hsq, hdone, habs, hlen, hstuck, hrest, hend, _⟩ := hend.2 ⟨hsil, hstop, rfl⟩
    rw [hk.shellQ, hat.shellQ, hw] at hsq
    have hsplit : good = done ∧ stuck = [bad] ∧ rest = later := by
      have key : ∀ (good done : List Multipart), good ++ bad :: later = done ++ stuck ++ rest →
          (∀ q' ∈ good, Abortable env q') → (∀ q' ∈ done, Abortable env q') →
          good = done ∧ stuck = [bad] ∧ rest = later := by
        intro good
        induction good with
        | nil =>
          intro done he hg hd
          cases done with
          | nil =>
            cases stuck with
            | nil => rw [hrest rfl] at he; simp at he
            | cons s r =>
              have : r = [] := by cases r with
                | nil => rfl
                | cons _ _ => simp at hlen
              subst this
              simp at he
              simp [he]
          | cons d ds =>
            simp at he
            exact absurd (hd d (by simp)) (he.1 ▸ hb)
        | cons g gs ih =>
          intro done he hg hd
          cases done with
          | nil =>
            cases stuck with
            | nil => rw [hrest rfl] at he; simp at he
            | cons s r =>
              simp at he
              exact absurd (hg g (by simp)) (he.1 ▸ hstuck s (by simp))
          | cons d ds =>
            simp only [List.cons_append, List.cons.injEq] at he
            obtain ⟨h1, h2, h3⟩ := ih ds he.2 (fun q' h => hg q' (by simp [h])) fun q' h => hd q' (by simp [h])
            exact ⟨by rw [he.1, h1], h2, h3⟩
      exact key good done hsq hq hdone
    obtain ⟨rfl, rfl, rfl⟩ := hsplit
    have hc := hend (by simpa using hu)
    obtain ⟨b, outs, i, hb, hi, hpo, hout⟩ := concludes_events hat hk (by rfl) hc
    refine ⟨hc.ok, hc.shellQ, _, rep, ab, hout, ?_, isReplyWith_isReply hrep, habs⟩
    rw [events_replies hb hi (announce_no_reply hann) hpo, repliesIn_append, reply_one (isReplyWith_isReply hrep),
      repliesIn_all (abortAll_reply habs)]
    rfl
  · exact absurd (hpj' hpj) h

/-- C20: the queue is touched only by a non-silent execute request with `stop_on_error` that was answered with status
`error`. -/
theorem C20_otherwise (env : Env) (hs : Sane env) (I : Interp σ) (q : Multipart) (m : XMessage) (c : Chan)
    (ha : Accepted env.C env.J env.auth q m) (w : World σ) (hp : ParentsOk w) (hc : InInt w.count)
    (hc' : InInt (w.count + 1)) (hne : ((dispatch env I q c).run w).2.shellQ ≠ w.shellQ) :
    IsReq m .execute ∧ ∃ f md j rep, execFields m.body.content = some f ∧ f.silent = false ∧ f.stop = true ∧
      rep ∈ ((dispatch env I q c).run w).2.out ∧
      IsReplyWith env c m.ids m.body.header (lit "execute_reply") md j rep ∧
      strField j "status" "error" = some (lit "error") := by
  have hr : IsReq m .execute := by
    cases ht : typeOf m.body.header with
    | none =>
      obtain ⟨w₀, hb, hrun⟩ := untyped hs I c ha w ht
      rw [hrun] at hne
      exact absurd hb.shellQ hne
    | some t =>
      obtain ⟨_, _, _, _, _, done, stuck, _, _, _, _, _, _, hsq, _, _, hno, _⟩ := dispatch_block hs I c ha ht w
      by_cases hr : IsReq m .execute
      · exact hr
      · obtain ⟨rfl, rfl⟩ := hno hr
        exact absurd hsq.symm hne
  refine ⟨hr, ?_⟩
  cases hf : execFields m.body.content with
  | none =>
    by_cases hw : ExecWild m.body.content
    · obtain ⟨w₀, hb, hrun⟩ := execute_wild hs I c ha w hr hw
      rw [hrun] at hne; exact absurd hb.shellQ hne
    · exact absurd (execute_bad hs I c ha w hr hf hw).shellQ hne
  | some f =>
    obtain ⟨b, pre, outs, thr, rep, ab, fin, done, hout, hb, hann, ho, hthr, hrep, hab, hfin, _⟩ :=
      C18_shape env hs I q m c f ha hr hf w hp hc fun _ => hc'
    rcases hrep with ⟨_, _, _, h⟩ | ⟨r, md, j, rfl, hrep, _, _, habs⟩
    · exact absurd h hne
    · obtain ⟨s, hs, h1, h2, rfl⟩ := habs (.inl hne)
      exact ⟨f, md, j, r, rfl, h1, h2, by rw [hout]; simp, hrep, hs⟩

/-! ## C21 -/

/-- C21: the type of the abort reply is determined by the type of the message. -/
theorem C21_unique (t a b : Str) (ha : AbortType t a) (hb : AbortType t b) : a = b := AbortType.unique ha hb

/-- C21: exactly the types with an underscore have one. -/
theorem C21_exists (t : Str) : (∃ t', AbortType t t') ↔ 95 ∈ t := by
  constructor
  · rintro ⟨t', h⟩; exact AbortType.mem h
  · intro h
    obtain ⟨t', h'⟩ := abortName_some h
    exact ⟨t', abortName_ok h'⟩

/-- C21: the code computes it, and throws `std::out_of_range` when there is none. -/
theorem C21_code (t : Str) : (∀ t', abortName t = .ok t' ↔ AbortType t t') ∧
    (95 ∉ t ↔ abortName t = .exc .outOfRange) := by
  constructor
  · intro t'
    refine ⟨abortName_ok, fun h => ?_⟩
    obtain ⟨t'', h'⟩ := abortName_some (AbortType.mem h)
    rw [h', AbortType.unique (abortName_ok h') h]
  · refine ⟨abortName_exc, fun h hm => ?_⟩
    obtain ⟨t', h'⟩ := abortName_some hm
    rw [h'] at h
    simp at h

/-- C21: the abort reply to `X_request` is `X_reply`. -/
theorem C21_request (x : Str) : AbortType (x ++ lit "_request") (x ++ lit "_reply") :=
  ⟨x, lit "request", by rw [List.append_assoc]; rfl, by decide, by
    rw [show (lit "request").drop 7 = [] by decide, List.append_nil]⟩

/-- C21: a message whose type has no underscore cannot be aborted. -/
theorem C21_no_underscore (env : Env) (q : Multipart) (m : XMessage) (t : Str)
    (ha : Accepted env.C env.J env.auth q m) (ht : typeOf m.body.header = some t) (h : 95 ∉ t) : ¬ Abortable env q := by
  rintro (hr | ⟨m', t', t'', ha', ht', hn, _⟩)
  · obtain ⟨e, he, _⟩ := refused_exc _ _ _ _ hr
    rw [accepted_ok _ _ _ _ _ ha] at he
    simp at he
  · have : m = m' := by
      have e1 := accepted_ok _ _ _ _ _ ha
      rw [accepted_ok _ _ _ _ _ ha'] at e1
      exact (Res.ok.inj e1).symm
    subst this
    rw [ht] at ht'
    obtain rfl := Option.some.inj ht'
    exact h (AbortType.mem hn)

example : AbortType (lit "is_complete_request") (lit "is_complete_reply") := C21_request (lit "is_complete")
example : AbortType (lit "comm_open") (lit "comm_reply") := (C21_code _).1 _ |>.1 (by decide)

/-- A queue of one abortable request, one rubbish multipart and one message that stops the loop. -/
example : ∃ q₁ q₂, Abortable sampleEnv q₁ ∧ Abortable sampleEnv [[1]] ∧ ¬ Abortable sampleEnv q₂ ∧
    ¬ Undefined sampleEnv.J sampleEnv.auth q₂ := by
  obtain ⟨q₁, h₁⟩ := sampleReq_accepted "execute_request" (.obj []) (by decide) (by decide) (by decide +kernel)
  obtain ⟨q₂, h₂⟩ := sampleReq_accepted "ping" (.obj []) (by decide) (by decide) (by decide +kernel)
  exact ⟨q₁, q₂, .inr ⟨_, lit "execute_request", lit "execute_reply", h₁, rfl, C21_request (lit "execute"),
    fun _ => utf8_lit (by decide)⟩, .inl (.inl (by decide)), C21_no_underscore _ _ _ (lit "ping") h₂ rfl (by decide),
    accepted_not_undefined h₂⟩

/-- The execution of `bad` by the sample interpreter, with an abortable request and a rubbish multipart in the queue,
meets the assumptions of `C20_abort`. -/
example : ∃ q m q₁, Accepted sampleEnv.C sampleEnv.J sampleEnv.auth q m ∧ IsReq m .execute ∧
    (∀ q' ∈ [q₁, [[1]]], Abortable sampleEnv q') ∧ ∃ f, execFields m.body.content = some f ∧ f.silent = false ∧
    f.stop = true ∧ ∀ w : World Nat, w.shellQ = [q₁, [[1]]] →
      Returns sampleEnv m .shell w (w.count + 1) (execCall w f) (Op.sem sampleEnv) (execProg sampleInterp w f) fun j =>
        j.isObj = true ∧ Printable sampleEnv.eh j ∧ strField j "status" "error" = some (lit "error") := by
  obtain ⟨q, hq⟩ := sampleReq_accepted "execute_request"
    (.obj [(lit "code", .str (lit "bad")), (lit "stop_on_error", .bool true)]) (by decide) (by decide) (by decide +kernel)
  obtain ⟨q₁, h₁⟩ := sampleReq_accepted "execute_request" (.obj []) (by decide) (by decide) (by decide +kernel)
  refine ⟨q, _, q₁, hq, rfl, ?_, ⟨lit "bad", false, true, 1, .obj [], true, true⟩, rfl, rfl, rfl, ?_⟩
  · intro q' h
    simp only [List.mem_cons, List.not_mem_nil, or_false] at h
    rcases h with rfl | rfl
    · exact .inr ⟨_, lit "execute_request", lit "execute_reply", h₁, rfl, C21_request (lit "execute"),
        fun _ => utf8_lit (by decide)⟩
    · exact .inl (.inl (by decide))
  · intro w _ pre w₁ hat
    obtain ⟨wire, _, hpub⟩ := publishMessage_ok sampleEnv_sane (type := lit "stream") (metadata := .obj [])
      (content := (Json.put .null (lit "name") (.str (lit "stdout"))).put (lit "text") (.str (lit "bad"))) []
      (c := .shell) (w := w₁) (by rw [hat.cur]; exact (accepted_parsed sampleEnv_sane hq).1) (utf8_lit (by decide))
      (emptyObj_printable _) ⟨by decide, fun _ => (jsonUtf8_iff _).2 (by decide +kernel)⟩
    refine ⟨.obj [(lit "status", .str (lit "error"))],
      { tick w₁ with
        out := w₁.out ++ [.pub .shell (pubAt sampleEnv w₁ (lit "stream") (.obj [])
          ((Json.put .null (lit "name") (.str (lit "stdout"))).put (lit "text") (.str (lit "bad"))) [] .shell) wire],
        st := w₁.st + 1 }, ?_, rfl, ⟨by decide, fun _ => (jsonUtf8_iff _).2 (by decide +kernel)⟩, rfl⟩
    show ((Prog.call (.pub (.stream (lit "stdout") (lit "bad"))) _).exec (Op.sem sampleEnv)).run w₁ = _
    simp only [Prog.exec, Op.sem, publishOp, PubOp.type, PubOp.content, K.run_bind, K.run_attempt, hpub, K.andThen_ok,
      K.run_pure, K.captured_ok, K.run_read, K.run_modify]
    rfl

end Xeus
