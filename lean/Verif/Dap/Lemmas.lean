import Verif.Dap.Spec
import Verif.Dap.FramingLemmas

/-! # The debug adapter client: lemmas (no property statements here) -/

namespace Xeus

open Spec K

variable {σ : Type} {cl : Client σ}

/-! ## Testing messages -/

theorem testMsg_ok {cond : Json → Res Bool} {raw : Str} {j : Json} {b : Bool}
    (h : testMsg cl cond raw = .ok (j, b)) : cl.env.J.parse raw = some j ∧ cond j = .ok b := by
  simp only [testMsg, Codec.parseZmq] at h
  cases hp : cl.env.J.parse raw with
  | none => simp [hp] at h
  | some j' =>
    simp only [hp, Res.bind_ok] at h
    cases hc : cond j' with
    | ok b' =>
      simp [hc] at h
      obtain ⟨rfl, rfl⟩ := h
      exact ⟨rfl, hc⟩
    | exc e => simp [hc] at h
    | ub w => simp [hc] at h
    | hang => simp [hc] at h

theorem testMsg_of {cond : Json → Res Bool} {raw : Str} {j : Json} {b : Bool}
    (h : cl.env.J.parse raw = some j) (hc : cond j = .ok b) : testMsg cl cond raw = .ok (j, b) := by
  simp [testMsg, Codec.parseZmq, h, hc]

theorem testMsg_hits {cond : Json → Res Bool} {raw : Str} {j : Json} {b : Bool}
    (h : testMsg cl cond raw = .ok (j, b)) : hits cl.env.J cond raw = b := by
  obtain ⟨h1, h2⟩ := testMsg_ok h
  simp only [hits, h1, h2]
  cases b <;> rfl

theorem testMsg_decided {cond : Json → Res Bool} {raw : Str} (h : Decided cl.env.J cond raw) :
    ∃ j, cl.env.J.parse raw = some j ∧ testMsg cl cond raw = .ok (j, hits cl.env.J cond raw) := by
  obtain ⟨j, b, h1, h2⟩ := h
  have := testMsg_of h1 h2
  exact ⟨j, h1, by rw [testMsg_hits this]; exact this⟩

/-! ## Searching the queue -/

theorem searchQueue_some {cond : Json → Res Bool} {q : List Str} {j : Json} {raw : Str} {q' : List Str}
    (h : searchQueue cl cond q = .ok (some (j, raw, q'))) :
    ∃ pre post, q = pre ++ raw :: post ∧ q' = pre ++ post ∧ cl.env.J.parse raw = some j ∧ cond j = .ok true ∧
      ∀ x ∈ pre, hits cl.env.J cond x = false := by
  induction q generalizing q' with
  | nil => simp [searchQueue] at h
  | cons x q ih =>
    simp only [searchQueue] at h
    cases ht : testMsg cl cond x with
    | ok r =>
      obtain ⟨j', b⟩ := r
      cases b with
      | true =>
        simp [ht] at h
        obtain ⟨rfl, rfl, rfl⟩ := h
        obtain ⟨h1, h2⟩ := testMsg_ok ht
        exact ⟨[], q, rfl, rfl, h1, h2, by simp⟩
      | false =>
        simp only [ht] at h
        cases hs : searchQueue cl cond q with
        | ok o =>
          cases o with
          | none => simp [hs] at h
          | some y =>
            obtain ⟨j2, r2, q2⟩ := y
            simp [hs] at h
            obtain ⟨rfl, rfl, rfl⟩ := h
            obtain ⟨pre, post, h1, h2, h3, h4, h5⟩ := ih hs
            refine ⟨x :: pre, post, by rw [h1]; rfl, by rw [h2]; rfl, h3, h4, ?_⟩
            intro y hy
            rcases List.mem_cons.1 hy with rfl | hy
            · exact testMsg_hits ht
            · exact h5 y hy
        | exc e => simp [hs] at h
        | ub w => simp [hs] at h
        | hang => simp [hs] at h
    | exc e => simp [ht] at h
    | ub w => simp [ht] at h
    | hang => simp [ht] at h

theorem searchQueue_found {cond : Json → Res Bool} {pre post : List Str} {raw : Str} {j : Json}
    (hpre : ∀ x ∈ pre, Decided cl.env.J cond x ∧ hits cl.env.J cond x = false)
    (hj : cl.env.J.parse raw = some j) (hc : cond j = .ok true) :
    searchQueue cl cond (pre ++ raw :: post) = .ok (some (j, raw, pre ++ post)) := by
  induction pre with
  | nil => simp [searchQueue, testMsg_of hj hc]
  | cons x pre ih =>
    obtain ⟨j', _, ht⟩ := testMsg_decided (hpre x (by simp)).1
    rw [(hpre x (by simp)).2] at ht
    simp only [List.cons_append, searchQueue, ht]
    rw [ih fun y hy => hpre y (by simp [hy])]

theorem searchQueue_none {cond : Json → Res Bool} {q : List Str}
    (h : ∀ x ∈ q, Decided cl.env.J cond x ∧ hits cl.env.J cond x = false) : searchQueue cl cond q = .ok none := by
  induction q with
  | nil => rfl
  | cons x q ih =>
    obtain ⟨j', _, ht⟩ := testMsg_decided (h x (by simp)).1
    rw [(h x (by simp)).2] at ht
    simp only [searchQueue, ht]
    rw [ih fun y hy => h y (by simp [hy])]

/-! ## Draining -/

/-- What draining does, whatever happens. -/
theorem drain_shape (cond : Json → Res Bool) (stopped queue : List Str) (found : Option (Json × Str))
    (lost : List Str) (hfound : ∀ j raw, found = some (j, raw) → cl.env.J.parse raw = some j ∧ cond j = .ok true) :
    ∃ used, stopped = used ++ (drain cl cond stopped queue found lost).stopped ∧
      (drain cl cond stopped queue found lost).queue = queue ++ used.filter (fun x => !hits cl.env.J cond x) ∧
      lost ++ (found.map Prod.snd).toList ++ used.filter (hits cl.env.J cond) =
        (drain cl cond stopped queue found lost).lost ++ (drain cl cond stopped queue found lost).waited ∧
      (∀ j, (drain cl cond stopped queue found lost).res = .ok (some j) →
        (drain cl cond stopped queue found lost).stopped = [] ∧
        ∃ raw, (drain cl cond stopped queue found lost).waited = [raw] ∧ cl.env.J.parse raw = some j ∧
          cond j = .ok true) ∧
      ((drain cl cond stopped queue found lost).res = .ok none →
        (drain cl cond stopped queue found lost).stopped = [] ∧ (drain cl cond stopped queue found lost).waited = [] ∧
        found = none ∧ ∀ x ∈ used, hits cl.env.J cond x = false) ∧
      ((∀ o, (drain cl cond stopped queue found lost).res ≠ .ok o) →
        (drain cl cond stopped queue found lost).waited = []) := by
  induction stopped generalizing queue found lost with
  | nil =>
    refine ⟨[], rfl, by simp [drain], by simp [drain], ?_, ?_, ?_⟩
    · intro j hj
      cases found with
      | none => simp [drain] at hj
      | some x =>
        obtain ⟨j', raw⟩ := x
        simp [drain] at hj
        subst hj
        exact ⟨rfl, raw, rfl, hfound _ _ rfl⟩
    · intro hj
      cases found with
      | none => exact ⟨rfl, rfl, rfl, by simp⟩
      | some x => simp [drain] at hj
    · intro h
      exact absurd rfl (h _)
  | cons raw stopped ih =>
    simp only [drain]
    cases ht : testMsg cl cond raw with
    | ok r =>
      obtain ⟨j, b⟩ := r
      have hh := testMsg_hits ht
      cases b with
      | true =>
        obtain ⟨used, h1, h2, h3, h4, h5, h6⟩ := ih queue (some (j, raw)) (lost ++ (found.map Prod.snd).toList) (by
          intro j' raw' he
          simp at he
          obtain ⟨rfl, rfl⟩ := he
          exact testMsg_ok ht)
        refine ⟨raw :: used, by rw [List.cons_append, ← h1], ?_, ?_, h4, ?_, h6⟩
        · rw [h2]; simp [hh]
        · rw [← h3]; simp [hh, List.append_assoc]
        · intro hn
          exact absurd (h5 hn).2.2.1 (by simp)
      | false =>
        obtain ⟨used, h1, h2, h3, h4, h5, h6⟩ := ih (queue ++ [raw]) found lost hfound
        refine ⟨raw :: used, by rw [List.cons_append, ← h1], ?_, ?_, h4, ?_, h6⟩
        · rw [h2]; simp [hh, List.append_assoc]
        · rw [← h3]; simp [hh]
        · intro hn
          obtain ⟨g1, g2, g3, g4⟩ := h5 hn
          refine ⟨g1, g2, g3, ?_⟩
          intro x hx
          rcases List.mem_cons.1 hx with rfl | hx
          · exact hh
          · exact g4 x hx
    | exc e => exact ⟨[], by simp, by simp, by simp, by simp, by simp, by simp⟩
    | ub e => exact ⟨[], by simp, by simp, by simp, by simp, by simp, by simp⟩
    | hang => exact ⟨[], by simp, by simp, by simp, by simp, by simp, by simp⟩

/-- Draining messages that can all be tested. -/
theorem drain_decided {cond : Json → Res Bool} {stopped : List Str} (h : ∀ x ∈ stopped, Decided cl.env.J cond x)
    (queue : List Str) (found : Option (Json × Str)) (lost : List Str)
    (hfound : ∀ j raw, found = some (j, raw) → cl.env.J.parse raw = some j) :
    drain cl cond stopped queue found lost =
      ⟨.ok (((found.map Prod.snd).toList ++ stopped.filter (hits cl.env.J cond)).getLast?.bind cl.env.J.parse), [],
        queue ++ stopped.filter (fun x => !hits cl.env.J cond x),
        ((found.map Prod.snd).toList ++ stopped.filter (hits cl.env.J cond)).getLast?.toList,
        lost ++ ((found.map Prod.snd).toList ++ stopped.filter (hits cl.env.J cond)).dropLast⟩ := by
  induction stopped generalizing queue found lost with
  | nil =>
    cases found with
    | none => simp [drain]
    | some x =>
      obtain ⟨j, raw⟩ := x
      simp [drain, hfound _ _ rfl]
  | cons raw stopped ih =>
    have h' : ∀ x ∈ stopped, Decided cl.env.J cond x := fun x hx => h x (by simp [hx])
    obtain ⟨j, hj, ht⟩ := testMsg_decided (h raw (by simp))
    simp only [drain, ht]
    cases hh : hits cl.env.J cond raw with
    | true =>
      dsimp only
      rw [ih h' _ _ _ (by intro j' raw' he; simp at he; obtain ⟨rfl, rfl⟩ := he; exact hj)]
      cases found with
      | none => simp [hh]
      | some x => simp [hh, List.append_assoc]
    | false =>
      dsimp only
      rw [ih h' _ _ _ hfound]
      simp [hh, List.append_assoc]

/-! ## Waiting -/

/-- What does not change while waiting. -/
structure SameRest (s s' : Dap σ) : Prop where
  st : s'.st = s.st
  parentHeader : s'.parentHeader = s.parentHeader
  requestStop : s'.requestStop = s.requestStop
  waitAttach : s'.waitAttach = s.waitAttach
  replyDue : s'.replyDue = s.replyDue
  ctlIn : s'.ctlIn = s.ctlIn
  hdrIn : s'.hdrIn = s.hdrIn
  guids : s'.guids = s.guids
  clocks : s'.clocks = s.clocks
  out : s'.out = s.out
  routed : s'.routed = s.routed

theorem SameRest.refl (s : Dap σ) : SameRest s s := ⟨rfl, rfl, rfl, rfl, rfl, rfl, rfl, rfl, rfl, rfl, rfl⟩

theorem SameRest.trans {a b c : Dap σ} (h₁ : SameRest a b) (h₂ : SameRest b c) : SameRest a c :=
  ⟨h₂.st.trans h₁.st, h₂.parentHeader.trans h₁.parentHeader, h₂.requestStop.trans h₁.requestStop,
   h₂.waitAttach.trans h₁.waitAttach, h₂.replyDue.trans h₁.replyDue, h₂.ctlIn.trans h₁.ctlIn,
   h₂.hdrIn.trans h₁.hdrIn, h₂.guids.trans h₁.guids, h₂.clocks.trans h₁.clocks, h₂.out.trans h₁.out,
   h₂.routed.trans h₁.routed⟩

/-- How waiting on the stream changes the queues and the records. -/
structure WaitEffect (J : Codec) (cond : Json → Res Bool) (s : Dap σ) (r : Res Json) (s' : Dap σ) : Prop where
  same : SameRest s s'
  chunks : ∃ read, s.tcpIn = read ++ s'.tcpIn
  moved : ∃ new used L W, s'.rcvd = s.rcvd ++ new ∧ s.stopped ++ new = used ++ s'.stopped ∧
    s'.queue = s.queue ++ used.filter (fun x => !hits J cond x) ∧
    used.filter (hits J cond) = L ++ W ∧ s'.lost = s.lost ++ L ∧ s'.waited = s.waited ++ W ∧
    (∀ j, r = .ok j → s'.stopped = [] ∧ ∃ raw, W = [raw] ∧ J.parse raw = some j ∧ cond j = .ok true) ∧
    ((∀ j, r ≠ .ok j) → W = [])

theorem handleTcp_got {q cs q' cs' : List Str} (h : handleTcp q cs = .got q' cs') :
    ∃ batch used, batch ≠ [] ∧ used ≠ [] ∧ q' = q ++ batch ∧ cs = used ++ cs' := by
  rcases handleTcp_shape cs with ⟨b, u, c, h1, h2, h3, h4⟩ | ⟨e, b, u, c, h1, h2, h3⟩ | h4
  · rw [h4] at h
    cases h
    exact ⟨b, u, h1, h2, rfl, h3⟩
  · rw [h3] at h; cases h
  · rw [h4] at h; cases h

theorem handleTcp_thrown {q cs q' cs' : List Str} {e : Exc} (h : handleTcp q cs = .thrown e q' cs') :
    ∃ batch used, used ≠ [] ∧ q' = q ++ batch ∧ cs = used ++ cs' := by
  rcases handleTcp_shape cs with ⟨b, u, c, h1, h2, h3, h4⟩ | ⟨e, b, u, c, h1, h2, h3⟩ | h4
  · rw [h4] at h; cases h
  · rw [h3] at h
    cases h
    exact ⟨b, u, h1, rfl, h2⟩
  · rw [h4] at h; cases h

theorem waitLoop_effect (cond : Json → Res Bool) (n : Nat) (s : Dap σ) :
    WaitEffect cl.env.J cond s (waitLoop cl cond n s).1 (waitLoop cl cond n s).2 := by
  induction n generalizing s with
  | zero =>
    refine ⟨SameRest.refl s, ⟨[], rfl⟩, [], [], [], [], ?_, ?_, ?_, rfl, ?_, ?_, ?_, ?_⟩ <;> simp [waitLoop]
  | succ n ih =>
    simp only [waitLoop]
    cases ht : handleTcp s.stopped s.tcpIn with
    | blocked =>
      refine ⟨SameRest.refl s, ⟨[], rfl⟩, [], [], [], [], ?_, ?_, ?_, rfl, ?_, ?_, ?_, ?_⟩ <;> simp
    | endless =>
      refine ⟨SameRest.refl s, ⟨[], rfl⟩, [], [], [], [], ?_, ?_, ?_, rfl, ?_, ?_, ?_, ?_⟩ <;> simp
    | thrown e q cs =>
      obtain ⟨batch, used, _, rfl, hcs⟩ := handleTcp_thrown ht
      refine ⟨⟨rfl, rfl, rfl, rfl, rfl, rfl, rfl, rfl, rfl, rfl, rfl⟩, ⟨used, hcs⟩, batch, [], [], [], ?_, ?_, ?_, rfl,
        ?_, ?_, ?_, ?_⟩ <;> simp
    | got q cs =>
      obtain ⟨batch, used, _, _, rfl, hcs⟩ := handleTcp_got ht
      obtain ⟨w, h1, h2, h3, h4, h5, h6⟩ := drain_shape (cl := cl) cond (s.stopped ++ batch) s.queue none [] (by simp)
      dsimp only
      generalize drain cl cond (s.stopped ++ batch) s.queue none [] = d at h1 h2 h3 h4 h5 h6
      simp only [Option.map_none, Option.toList_none, List.append_nil, List.nil_append] at h3
      have hnew : (s.stopped ++ batch).drop s.stopped.length = batch := by simp
      rw [hnew]
      have hsame : SameRest s (afterDrain s (s.rcvd ++ batch) cs d) :=
        ⟨rfl, rfl, rfl, rfl, rfl, rfl, rfl, rfl, rfl, rfl, rfl⟩
      cases hr : d.res with
      | ok o =>
        cases o with
        | some j =>
          dsimp only
          obtain ⟨g1, raw, g2, g3, g4⟩ := h4 j hr
          refine ⟨hsame, ⟨used, hcs⟩, batch, w, d.lost, d.waited, rfl, h1, h2, h3, rfl, rfl, ?_, ?_⟩
          · intro j' hj'
            cases hj'
            exact ⟨g1, raw, g2, g3, g4⟩
          · intro hne; exact absurd rfl (hne j)
        | none =>
          dsimp only
          obtain ⟨g1, g2, _, g4⟩ := h5 hr
          obtain ⟨hs2, ⟨read2, hread2⟩, new2, used2, L2, W2, e1, e2, e3, e4, e5, e6, e7, e8⟩ :=
            ih (afterDrain s (s.rcvd ++ batch) cs d)
          have hw : w.filter (hits cl.env.J cond) = [] := by
            rw [List.filter_eq_nil_iff]; intro x hx; simp [g4 x hx]
          have hdl : d.lost = [] := by
            rw [hw, g2, List.append_nil] at h3; exact h3.symm
          refine ⟨hsame.trans hs2, ⟨used ++ read2, ?_⟩, batch ++ new2, w ++ used2, L2, W2, ?_, ?_, ?_, ?_, ?_, ?_, e7, e8⟩
          · rw [hcs, List.append_assoc, ← hread2]; rfl
          · rw [e1]; simp [afterDrain, List.append_assoc]
          · have e2' : new2 = used2 ++ (waitLoop cl cond n (afterDrain s (s.rcvd ++ batch) cs d)).2.stopped := by
              have : (afterDrain s (s.rcvd ++ batch) cs d).stopped = [] := g1
              rw [this] at e2; simpa using e2
            rw [← List.append_assoc, h1, g1, List.append_nil, List.append_assoc, ← e2']
          · rw [e3]
            show d.queue ++ _ = _
            rw [h2, List.filter_append, List.append_assoc]
          · rw [List.filter_append, hw, e4]; rfl
          · rw [e5]
            show s.lost ++ d.lost ++ L2 = _
            rw [hdl, List.append_nil]
          · rw [e6]
            show s.waited ++ d.waited ++ W2 = _
            rw [g2, List.append_nil]
      | exc e =>
        have hw0 := h6 (by simp [hr])
        refine ⟨hsame, ⟨used, hcs⟩, batch, w, d.lost, d.waited, rfl, h1, h2, h3, rfl, rfl, ?_, ?_⟩
        · intro j hj; cases hj
        · intro _; exact hw0
      | ub e =>
        have hw0 := h6 (by simp [hr])
        refine ⟨hsame, ⟨used, hcs⟩, batch, w, d.lost, d.waited, rfl, h1, h2, h3, rfl, rfl, ?_, ?_⟩
        · intro j hj; cases hj
        · intro _; exact hw0
      | hang =>
        have hw0 := h6 (by simp [hr])
        refine ⟨hsame, ⟨used, hcs⟩, batch, w, d.lost, d.waited, rfl, h1, h2, h3, rfl, rfl, ?_, ?_⟩
        · intro j hj; cases hj
        · intro _; exact hw0

/-! ## Batches -/

theorem Spec.Batches.length_le {cs cs' : List Str} {bs : List (List Str)} (h : Batches cs bs cs') :
    bs.length + cs'.length ≤ cs.length := by
  induction h with
  | nil => simp
  | cons h1 _ ih =>
    obtain ⟨batch, used, _, hu, _, hcs⟩ := handleTcp_got h1
    have : 0 < used.length := List.length_pos_iff.2 hu
    rw [hcs]
    simp only [List.length_cons, List.length_append]
    omega

theorem Spec.Batches.append {a b c : List Str} {bs bs' : List (List Str)} (h : Batches a bs b) (h' : Batches b bs' c) :
    Batches a (bs ++ bs') c := by
  induction h with
  | nil => exact h'
  | cons h1 _ ih => exact .cons h1 (ih h')

/-- Splitting a sequence of batches. -/
theorem Spec.Batches.split {a c : List Str} {bs bs' : List (List Str)} (h : Batches a (bs ++ bs') c) :
    ∃ b, Batches a bs b ∧ Batches b bs' c := by
  induction bs generalizing a with
  | nil => exact ⟨a, .nil, h⟩
  | cons x bs ih =>
    cases h with
    | cons h1 h2 =>
      obtain ⟨b, g1, g2⟩ := ih h2
      exact ⟨b, .cons h1 g1, g2⟩

theorem drop_flatten_wire {ms : List DapMsg} {cs : List Str} (h : cs.flatten = wireOfMsgs ms) {k n : Nat}
    (he : EndsMsg cs ms k n) : (cs.drop k).flatten = wireOfMsgs (ms.drop n) := by
  have e1 : cs.flatten = (cs.take k).flatten ++ (cs.drop k).flatten := by
    rw [← List.flatten_append, List.take_append_drop]
  have e2 : wireOfMsgs ms = wireOfMsgs (ms.take n) ++ wireOfMsgs (ms.drop n) := by
    unfold wireOfMsgs
    rw [← List.flatMap_append, List.take_append_drop]
  rw [h, e2, he.2.2.2] at e1
  exact (List.append_cancel_left e1).symm

/-- A complete stream is delivered in batches. -/
theorem batches_complete {ms : List DapMsg} (hms : ∀ m ∈ ms, m.Ok) {cs : List Str} (h : cs.flatten = wireOfMsgs ms) :
    ∃ bs cs', Batches cs bs cs' ∧ bs.flatten = bodies ms ∧ cs'.flatten = [] := by
  generalize hN : ms.length = N
  induction N using Nat.strongRecOn generalizing ms cs with
  | _ N ih =>
    cases hms0 : ms with
    | nil =>
      subst hms0
      exact ⟨[], cs, .nil, rfl, h⟩
    | cons m ms' =>
      rw [← hms0]
      have hend : EndsMsg cs ms cs.length ms.length :=
        ⟨by rw [hms0]; simp, Nat.le_refl _, Nat.le_refl _, by simpa using h⟩
      rcases handleTcp_cases hms [] (by rw [h]; exact List.prefix_refl _) with ⟨k, n, h2, _, h3⟩ | ⟨h2, _⟩
      · obtain ⟨bs, cs', g1, g2, g3⟩ := ih (ms.drop n).length (by
          rw [List.length_drop]; have := h2.1; have := h2.2.1; omega) (ms := ms.drop n) (cs := cs.drop k)
          (fun m hm => hms m (List.mem_of_mem_drop hm)) (drop_flatten_wire h h2) rfl
        refine ⟨_, cs', .cons h3 g1, ?_, g3⟩
        simp only [List.flatten_cons, g2, List.nil_append]
        unfold bodies
        rw [← List.map_append, List.take_append_drop]
      · exact absurd hend (h2 _ _)

/-- The stream after some batches is the stream of the remaining messages. -/
theorem Spec.Batches.rest {ms : List DapMsg} (hms : ∀ m ∈ ms, m.Ok) {cs cs' : List Str} {bs : List (List Str)}
    (hb : Batches cs bs cs') (h : cs.flatten = wireOfMsgs ms) :
    ∃ n, bs.flatten = bodies (ms.take n) ∧ cs'.flatten = wireOfMsgs (ms.drop n) := by
  induction hb generalizing ms with
  | nil => exact ⟨0, by simp [bodies], by simpa using h⟩
  | @cons cs b cs₁ bs cs₂ h1 _ ih =>
    rcases handleTcp_cases hms [] (by rw [h]; exact List.prefix_refl _) with ⟨k, n, h2, _, h3⟩ | ⟨_, h3⟩
    · rw [h3] at h1
      injection h1 with e1 e2
      subst e1; subst e2
      obtain ⟨n', g1, g2⟩ := ih (fun m hm => hms m (List.mem_of_mem_drop hm)) (drop_flatten_wire h h2)
      refine ⟨n + n', ?_, ?_⟩
      · simp only [List.flatten_cons, g1, List.nil_append]
        unfold bodies
        rw [← List.map_append, ← List.take_add]
      · rw [g2, List.drop_drop]
    · rw [h3] at h1; cases h1

/-! ## Waiting, when every message can be tested -/

theorem waitLoop_batches {cond : Json → Res Bool} {bs : List (List Str)} {b : List Str} {cs : List Str}
    (hfail : ∀ x ∈ bs.flatten, Decided cl.env.J cond x ∧ hits cl.env.J cond x = false)
    (hb : ∀ x ∈ b, Decided cl.env.J cond x) {hs : List Str} {raw : Str} {j : Json}
    (hhits : b.filter (hits cl.env.J cond) = hs ++ [raw]) (hj : cl.env.J.parse raw = some j)
    (n : Nat) (hn : bs.length < n) (s : Dap σ) (hst : s.stopped = [])
    (hbs : Batches s.tcpIn (bs ++ [b]) cs) :
    waitLoop cl cond n s = (.ok j, { s with
      queue := s.queue ++ bs.flatten ++ b.filter (fun x => !hits cl.env.J cond x), tcpIn := cs,
      rcvd := s.rcvd ++ bs.flatten ++ b, waited := s.waited ++ [raw], lost := s.lost ++ hs }) := by
  induction bs generalizing n s with
  | nil =>
    cases n with
    | zero => simp at hn
    | succ n =>
      cases hbs with
      | cons h1 h2 =>
        cases h2
        simp only [waitLoop, hst, h1]
        rw [drain_decided hb s.queue none [] (by simp)]
        simp only [Option.map_none, Option.toList_none, List.nil_append, hhits, List.getLast?_append,
          List.getLast?_singleton, Option.some_or, Option.bind_some, hj, Option.toList_some, List.dropLast_concat,
          List.length_nil, List.drop_zero, afterDrain, List.flatten_nil, List.append_nil]
  | cons b' bs ih =>
    cases n with
    | zero => simp at hn
    | succ n =>
      cases hbs with
      | cons h1 h2 =>
        have hb' : ∀ x ∈ b', Decided cl.env.J cond x ∧ hits cl.env.J cond x = false := fun x hx =>
          hfail x (by simp [hx])
        have hf1 : b'.filter (hits cl.env.J cond) = [] := by
          rw [List.filter_eq_nil_iff]; intro x hx; simp [(hb' x hx).2]
        have hf2 : b'.filter (fun x => !hits cl.env.J cond x) = b' := by
          rw [List.filter_eq_self]; intro x hx; simp [(hb' x hx).2]
        simp only [waitLoop, hst, h1]
        rw [drain_decided (fun x hx => (hb' x hx).1) s.queue none [] (by simp)]
        simp only [hf1, hf2, Option.map_none, Option.toList_none, List.getLast?_nil, Option.bind_none,
          List.dropLast_nil, List.append_nil, List.length_nil, List.drop_zero]
        rw [ih (fun x hx => hfail x (by simp only [List.flatten_cons, List.mem_append]; exact .inr hx)) n
          (by simpa using hn) _ rfl h2]
        cases s
        simp_all [afterDrain, List.append_assoc]

theorem wait_run_queued {cond : Json → Res Bool} {pre post : List Str} {raw : Str} {j : Json} {s : Dap σ}
    (hq : s.queue = pre ++ raw :: post)
    (hpre : ∀ x ∈ pre, Decided cl.env.J cond x ∧ hits cl.env.J cond x = false)
    (hj : cl.env.J.parse raw = some j) (hc : cond j = .ok true) :
    (waitForMessage cl cond).run s = (.ok j, { s with queue := pre ++ post, waited := s.waited ++ [raw] }) := by
  simp only [waitForMessage, run_lift, hq, searchQueue_found hpre hj hc]

theorem wait_run_batches {cond : Json → Res Bool} {bs : List (List Str)} {b : List Str} {cs : List Str} {s : Dap σ}
    (hq : ∀ x ∈ s.queue, Decided cl.env.J cond x ∧ hits cl.env.J cond x = false)
    (hfail : ∀ x ∈ bs.flatten, Decided cl.env.J cond x ∧ hits cl.env.J cond x = false)
    (hb : ∀ x ∈ b, Decided cl.env.J cond x) {hs : List Str} {raw : Str} {j : Json}
    (hhits : b.filter (hits cl.env.J cond) = hs ++ [raw]) (hj : cl.env.J.parse raw = some j)
    (hst : s.stopped = []) (hbs : Batches s.tcpIn (bs ++ [b]) cs) :
    (waitForMessage cl cond).run s = (.ok j, { s with
      queue := s.queue ++ bs.flatten ++ b.filter (fun x => !hits cl.env.J cond x), tcpIn := cs,
      rcvd := s.rcvd ++ bs.flatten ++ b, waited := s.waited ++ [raw], lost := s.lost ++ hs }) := by
  simp only [waitForMessage, run_lift, searchQueue_none hq]
  have := hbs.length_le
  simp only [List.length_append, List.length_cons, List.length_nil] at this
  exact waitLoop_batches hfail hb hhits hj _ (by omega) s hst hbs

/-- A list of batches that contains a match: the batches before the first one with a match, that one, the others. -/
theorem first_batch (p : Str → Bool) (bs : List (List Str)) (h : ∃ x ∈ bs.flatten, p x = true) :
    ∃ bs₁ b bs₂, bs = bs₁ ++ b :: bs₂ ∧ (∀ x ∈ bs₁.flatten, p x = false) ∧ ∃ x ∈ b, p x = true := by
  induction bs with
  | nil => simp at h
  | cons b bs ih =>
    by_cases hb : ∃ x ∈ b, p x = true
    · exact ⟨[], b, bs, rfl, by simp, hb⟩
    · obtain ⟨x, hx, hp⟩ := h
      simp only [List.flatten_cons, List.mem_append] at hx
      rcases hx with hx | hx
      · exact absurd ⟨x, hx, hp⟩ hb
      · obtain ⟨bs₁, b', bs₂, h1, h2, h3⟩ := ih ⟨x, hx, hp⟩
        refine ⟨b :: bs₁, b', bs₂, by rw [h1]; rfl, ?_, h3⟩
        intro y hy
        simp only [List.flatten_cons, List.mem_append] at hy
        rcases hy with hy | hy
        · cases hpy : p y with
          | false => rfl
          | true => exact absurd ⟨y, hy, hpy⟩ hb
        · exact h2 y hy

/-- The first match in a list. -/
theorem first_match (p : Str → Bool) (l : List Str) (h : ∃ x ∈ l, p x = true) :
    ∃ pre x post, l = pre ++ x :: post ∧ (∀ y ∈ pre, p y = false) ∧ p x = true := by
  induction l with
  | nil => simp at h
  | cons a l ih =>
    cases ha : p a with
    | true => exact ⟨[], a, l, rfl, by simp, ha⟩
    | false =>
      obtain ⟨pre, x, post, h1, h2, h3⟩ := ih (by
        obtain ⟨x, hx, hp⟩ := h
        rcases List.mem_cons.1 hx with rfl | hx
        · rw [ha] at hp; cases hp
        · exact ⟨x, hx, hp⟩)
      refine ⟨a :: pre, x, post, by rw [h1]; rfl, ?_, h3⟩
      intro y hy
      rcases List.mem_cons.1 hy with rfl | hy
      · exact ha
      · exact h2 y hy

theorem hits_parse {J : Codec} {cond : Json → Res Bool} {raw : Str} (h : hits J cond raw = true) :
    ∃ j, J.parse raw = some j ∧ cond j = .ok true := by
  unfold hits at h
  split at h
  · next j hj => exact ⟨j, hj, by simpa using h⟩
  · cases h

/-- Waiting for the only matching message, queued or still to come. -/
theorem wait_unique {cond : Json → Res Bool} {ms : List DapMsg} (hms : ∀ m ∈ ms, m.Ok) {s : Dap σ}
    (hin : s.tcpIn.flatten = wireOfMsgs ms) (hst : s.stopped = [])
    (hdec : ∀ x ∈ s.queue ++ bodies ms, Decided cl.env.J cond x) {raw : Str}
    (huniq : (s.queue ++ bodies ms).filter (hits cl.env.J cond) = [raw]) :
    ∃ j ms' s', cl.env.J.parse raw = some j ∧ cond j = .ok true ∧
      (waitForMessage cl cond).run s = (.ok j, s') ∧ SameRest s s' ∧ (∀ m ∈ ms', m.Ok) ∧
      s'.tcpIn.flatten = wireOfMsgs ms' ∧ s'.stopped = [] ∧ s'.lost = s.lost ∧ s'.waited = s.waited ++ [raw] ∧
      s'.queue ++ bodies ms' = (s.queue ++ bodies ms).filter (fun x => !hits cl.env.J cond x) := by
  have hmem : raw ∈ (s.queue ++ bodies ms).filter (hits cl.env.J cond) := by rw [huniq]; simp
  obtain ⟨hmem, hhit⟩ := List.mem_filter.1 hmem
  obtain ⟨j, hj, hc⟩ := hits_parse hhit
  by_cases hq : ∃ x ∈ s.queue, hits cl.env.J cond x = true
  · obtain ⟨x, hx, hxh⟩ := hq
    have hxr : x = raw := by
      have : x ∈ (s.queue ++ bodies ms).filter (hits cl.env.J cond) := List.mem_filter.2 ⟨by simp [hx], hxh⟩
      rw [huniq] at this
      simpa using this
    subst hxr
    obtain ⟨pre, post, hpp⟩ := List.append_of_mem hx
    have hno : ∀ y ∈ pre ++ (post ++ bodies ms), hits cl.env.J cond y = false := by
      intro y hy
      have e := huniq
      rw [hpp] at e
      simp only [List.filter_append, List.filter_cons, hxh, if_true] at e
      cases hyh : hits cl.env.J cond y with
      | false => rfl
      | true =>
        exfalso
        have hl := congrArg List.length e
        simp only [List.length_append, List.length_cons, List.length_nil] at hl
        have h0 : (pre.filter (hits cl.env.J cond)).length = 0 := by omega
        have h1 : (post.filter (hits cl.env.J cond)).length = 0 := by omega
        have h2 : ((bodies ms).filter (hits cl.env.J cond)).length = 0 := by omega
        simp only [List.mem_append] at hy
        rcases hy with hy | hy | hy
        · have := List.mem_filter.2 ⟨hy, hyh⟩
          rw [List.eq_nil_of_length_eq_zero h0] at this; cases this
        · have := List.mem_filter.2 ⟨hy, hyh⟩
          rw [List.eq_nil_of_length_eq_zero h1] at this; cases this
        · have := List.mem_filter.2 ⟨hy, hyh⟩
          rw [List.eq_nil_of_length_eq_zero h2] at this; cases this
    refine ⟨j, ms, _, hj, hc, wait_run_queued hpp (fun y hy => ⟨hdec y ?_, hno y (by simp [hy])⟩) hj hc,
      ⟨rfl, rfl, rfl, rfl, rfl, rfl, rfl, rfl, rfl, rfl, rfl⟩, hms, hin, hst, rfl, rfl, ?_⟩
    · rw [hpp]; simp [hy]
    · have e : (pre ++ (post ++ bodies ms)).filter (fun x => !hits cl.env.J cond x) = pre ++ (post ++ bodies ms) := by
        rw [List.filter_eq_self]; intro y hy; simp [hno y hy]
      rw [hpp]
      simp only [List.filter_append, List.filter_cons, hxh, Bool.not_true, Bool.false_eq_true, if_false,
        List.append_assoc, List.cons_append] at e ⊢
      exact e.symm
  · have hqn : ∀ x ∈ s.queue, Decided cl.env.J cond x ∧ hits cl.env.J cond x = false := by
      intro x hx
      refine ⟨hdec x (by simp [hx]), ?_⟩
      cases hxh : hits cl.env.J cond x with
      | false => rfl
      | true => exact absurd ⟨x, hx, hxh⟩ hq
    have hq0 : s.queue.filter (hits cl.env.J cond) = [] := by
      rw [List.filter_eq_nil_iff]; intro x hx; simp [(hqn x hx).2]
    have hq1 : s.queue.filter (fun x => !hits cl.env.J cond x) = s.queue := by
      rw [List.filter_eq_self]; intro x hx; simp [(hqn x hx).2]
    obtain ⟨bs, cs', hb1, hb2, hb3⟩ := batches_complete hms hin
    have hex : ∃ x ∈ bs.flatten, hits cl.env.J cond x = true := by
      refine ⟨raw, ?_, hhit⟩
      rw [hb2]
      rcases List.mem_append.1 hmem with h | h
      · exact absurd ⟨raw, h, hhit⟩ hq
      · exact h
    obtain ⟨bs₁, b, bs₂, hbs, hn1, x, hxb, hxh⟩ := first_batch _ _ hex
    subst hbs
    obtain ⟨mid, hm1, hm2⟩ := (show Batches s.tcpIn ((bs₁ ++ [b]) ++ bs₂) cs' by simpa using hb1).split
    obtain ⟨n, hn, hrest⟩ := hm1.rest hms hin
    have hbod : bodies ms = bs₁.flatten ++ b ++ bodies (ms.drop n) := by
      have : bodies ms = bodies (ms.take n) ++ bodies (ms.drop n) := by
        unfold bodies; rw [← List.map_append, List.take_append_drop]
      rw [this, ← hn]; simp
    have hbs0 : bs₁.flatten.filter (hits cl.env.J cond) = [] := by
      rw [List.filter_eq_nil_iff]; intro y hy; simp [hn1 y hy]
    have hbs1 : bs₁.flatten.filter (fun x => !hits cl.env.J cond x) = bs₁.flatten := by
      rw [List.filter_eq_self]; intro y hy; simp [hn1 y hy]
    have hall := huniq
    rw [hbod] at hall
    simp only [List.filter_append, hq0, hbs0, List.nil_append] at hall
    have hbne : b.filter (hits cl.env.J cond) ≠ [] := by
      intro h0
      have := List.mem_filter.2 ⟨hxb, hxh⟩
      rw [h0] at this; cases this
    have hbr : b.filter (hits cl.env.J cond) = [raw] ∧ (bodies (ms.drop n)).filter (hits cl.env.J cond) = [] := by
      cases hbf : b.filter (hits cl.env.J cond) with
      | nil => exact absurd hbf hbne
      | cons y ys =>
        rw [hbf] at hall
        simp only [List.cons_append, List.cons.injEq, List.append_eq_nil_iff] at hall
        obtain ⟨rfl, rfl, h3⟩ := hall
        exact ⟨rfl, h3⟩
    have hrestn : (bodies (ms.drop n)).filter (fun x => !hits cl.env.J cond x) = bodies (ms.drop n) := by
      rw [List.filter_eq_self]
      intro y hy
      have := (List.filter_eq_nil_iff.1 hbr.2) y hy
      simpa using this
    have hdec' : ∀ y, y ∈ bs₁.flatten ∨ y ∈ b → Decided cl.env.J cond y := by
      intro y hy
      refine hdec y ?_
      rw [hbod]
      simp only [List.mem_append]
      rcases hy with hy | hy <;> simp [hy]
    refine ⟨j, ms.drop n, _, hj, hc, wait_run_batches (hs := []) hqn (fun y hy => ⟨hdec' y (.inl hy), hn1 y hy⟩)
      (fun y hy => hdec' y (.inr hy)) hbr.1 hj hst hm1,
      ⟨rfl, rfl, rfl, rfl, rfl, rfl, rfl, rfl, rfl, rfl, rfl⟩, fun m hm => hms m (List.mem_of_mem_drop hm), hrest, hst,
      by simp, rfl, ?_⟩
    rw [hbod]
    simp only [List.filter_append, hq1, hbs1, hrestn, List.append_assoc]

/-- What waiting can do, whatever the condition. -/
theorem wait_cases (cond : Json → Res Bool) (s : Dap σ) :
    (∃ pre post raw j, s.queue = pre ++ raw :: post ∧ cl.env.J.parse raw = some j ∧ cond j = .ok true ∧
      (∀ x ∈ pre, hits cl.env.J cond x = false) ∧
      (waitForMessage cl cond).run s = (.ok j, { s with queue := pre ++ post, waited := s.waited ++ [raw] })) ∨
    WaitEffect cl.env.J cond s ((waitForMessage cl cond).run s).1 ((waitForMessage cl cond).run s).2 := by
  simp only [waitForMessage, run_lift]
  cases hs : searchQueue cl cond s.queue with
  | ok o =>
    cases o with
    | none => exact .inr (waitLoop_effect cond _ s)
    | some x =>
      obtain ⟨j, raw, q⟩ := x
      obtain ⟨pre, post, h1, h2, h3, h4, h5⟩ := searchQueue_some hs
      left
      refine ⟨pre, post, raw, j, h1, h3, h4, h5, ?_⟩
      rw [h2]
  | exc e =>
    right
    refine ⟨SameRest.refl s, ⟨[], rfl⟩, [], [], [], [], ?_, ?_, ?_, rfl, ?_, ?_, ?_, ?_⟩ <;> simp
  | ub e =>
    right
    refine ⟨SameRest.refl s, ⟨[], rfl⟩, [], [], [], [], ?_, ?_, ?_, rfl, ?_, ?_, ?_, ?_⟩ <;> simp
  | hang =>
    right
    refine ⟨SameRest.refl s, ⟨[], rfl⟩, [], [], [], [], ?_, ?_, ?_, rfl, ?_, ?_, ?_, ?_⟩ <;> simp

end Xeus
