import Verif.Dap.Lemmas
import Verif.Dap.Sample

/-!
# Waiting for a message of the debug adapter: property C55
-/

namespace Xeus

open Spec K

variable {σ : Type} {cl : Client σ}

/-- **C55**.  If a queued message satisfies the condition, the first such message is returned at once, and only it is
removed from the queue: nothing is read. -/
theorem C55_queued {cond : Json → Res Bool} {pre post : List Str} {raw : Str} {j : Json} {s : Dap σ}
    (hq : s.queue = pre ++ raw :: post)
    (hpre : ∀ x ∈ pre, Decided cl.env.J cond x ∧ hits cl.env.J cond x = false)
    (hj : cl.env.J.parse raw = some j) (hc : cond j = .ok true) :
    (waitForMessage cl cond).run s = (.ok j, { s with queue := pre ++ post, waited := s.waited ++ [raw] }) :=
  wait_run_queued hq hpre hj hc

example : ((waitForMessage sampleClient (wantN 2)).run (sampleDap [lit "{\"n\":1}", lit "{\"n\":2}", lit "{\"n\":3}"] [] false)).1
    = .ok (.obj [(lit "n", .int 2)]) := by
  rw [C55_queued (pre := [lit "{\"n\":1}"]) (raw := lit "{\"n\":2}") (post := [lit "{\"n\":3}"])
    (j := .obj [(lit "n", .int 2)]) rfl ?_ (by decide +kernel) (by decide +kernel)]
  intro x hx
  simp only [List.mem_singleton] at hx
  subst hx
  exact ⟨⟨.obj [(lit "n", .int 1)], false, by decide +kernel, by decide +kernel⟩, by decide +kernel⟩

/-- **C55**.  Otherwise batches of messages are read until one contains a message satisfying the condition.  The LAST
such message of that batch is returned; the messages not satisfying the condition are appended to the queue, in order of
arrival, and the other satisfying messages `hs` of that batch are dropped. -/
theorem C55_read {cond : Json → Res Bool} {bs : List (List Str)} {b : List Str} {cs : List Str} {s : Dap σ}
    (hq : ∀ x ∈ s.queue, Decided cl.env.J cond x ∧ hits cl.env.J cond x = false)
    (hfail : ∀ x ∈ bs.flatten, Decided cl.env.J cond x ∧ hits cl.env.J cond x = false)
    (hb : ∀ x ∈ b, Decided cl.env.J cond x) {hs : List Str} {raw : Str} {j : Json}
    (hhits : b.filter (hits cl.env.J cond) = hs ++ [raw]) (hj : cl.env.J.parse raw = some j)
    (hst : s.stopped = []) (hbs : Batches s.tcpIn (bs ++ [b]) cs) :
    (waitForMessage cl cond).run s = (.ok j, { s with
      queue := s.queue ++ bs.flatten ++ b.filter (fun x => !hits cl.env.J cond x), tcpIn := cs,
      rcvd := s.rcvd ++ bs.flatten ++ b, waited := s.waited ++ [raw], lost := s.lost ++ hs }) :=
  wait_run_batches hq hfail hb hhits hj hst hbs

/-- **C55**.  If exactly one message satisfies the condition, among those queued and those that the adapter is going to
send, whatever the chunking of the stream: it is returned, no message is dropped, and all other messages remain, queued
or still to be read, in the same order. -/
theorem C55_single {cond : Json → Res Bool} {ms : List DapMsg} (hms : ∀ m ∈ ms, m.Ok) {s : Dap σ}
    (hin : s.tcpIn.flatten = wireOfMsgs ms) (hst : s.stopped = [])
    (hdec : ∀ x ∈ s.queue ++ bodies ms, Decided cl.env.J cond x) {raw : Str}
    (huniq : (s.queue ++ bodies ms).filter (hits cl.env.J cond) = [raw]) :
    ∃ j ms' s', cl.env.J.parse raw = some j ∧ cond j = .ok true ∧ (waitForMessage cl cond).run s = (.ok j, s') ∧
      (∀ m ∈ ms', m.Ok) ∧ s'.tcpIn.flatten = wireOfMsgs ms' ∧ s'.stopped = [] ∧ s'.lost = s.lost ∧ s'.out = s.out ∧
      s'.queue ++ bodies ms' = (s.queue ++ bodies ms).filter (fun x => !hits cl.env.J cond x) := by
  obtain ⟨j, ms', s', h1, h2, h3, h4, h5, h6, h7, h8, _, h9⟩ := wait_unique hms hin hst hdec huniq
  exact ⟨j, ms', s', h1, h2, h3, h5, h6, h7, h8, h4.out, h9⟩

/-- **C55**.  The wait ends as soon as a satisfying message can be read: on a complete stream that contains one, it
always returns. -/
theorem C55_returns {cond : Json → Res Bool} {ms : List DapMsg} (hms : ∀ m ∈ ms, m.Ok) {s : Dap σ}
    (hin : s.tcpIn.flatten = wireOfMsgs ms) (hst : s.stopped = [])
    (hdec : ∀ x ∈ s.queue ++ bodies ms, Decided cl.env.J cond x)
    (hex : ∃ x ∈ s.queue ++ bodies ms, hits cl.env.J cond x = true) :
    ∃ j, ((waitForMessage cl cond).run s).1 = .ok j ∧ cond j = .ok true := by
  by_cases hq : ∃ x ∈ s.queue, hits cl.env.J cond x = true
  · obtain ⟨pre, x, post, h1, h2, hxh⟩ := first_match _ _ hq
    obtain ⟨j, hj, hc⟩ := hits_parse hxh
    refine ⟨j, ?_, hc⟩
    rw [wait_run_queued h1 (fun z hz => ⟨hdec z (by rw [h1]; simp [hz]), h2 z hz⟩) hj hc]
  · have hqn : ∀ x ∈ s.queue, Decided cl.env.J cond x ∧ hits cl.env.J cond x = false := by
      intro x hx
      refine ⟨hdec x (by simp [hx]), ?_⟩
      cases hxh : hits cl.env.J cond x with
      | false => rfl
      | true => exact absurd ⟨x, hx, hxh⟩ hq
    obtain ⟨bs, cs', hb1, hb2, hb3⟩ := batches_complete hms hin
    obtain ⟨bs₁, b, bs₂, hbs, hn1, x, hxb, hxh⟩ := first_batch (hits cl.env.J cond) bs (by
      obtain ⟨x, hx, hxh⟩ := hex
      refine ⟨x, ?_, hxh⟩
      rw [hb2]
      rcases List.mem_append.1 hx with h | h
      · exact absurd ⟨x, h, hxh⟩ hq
      · exact h)
    subst hbs
    obtain ⟨mid, hm1, _⟩ := (show Batches s.tcpIn ((bs₁ ++ [b]) ++ bs₂) cs' by simpa using hb1).split
    have hdec' : ∀ y, y ∈ bs₁.flatten ∨ y ∈ b → Decided cl.env.J cond y := by
      intro y hy
      refine hdec y (List.mem_append.2 (.inr ?_))
      rw [← hb2]
      simp only [List.flatten_append, List.flatten_cons, List.mem_append]
      rcases hy with hy | hy <;> simp [hy]
    have hne : b.filter (hits cl.env.J cond) ≠ [] := by
      intro h0
      have := List.mem_filter.2 ⟨hxb, hxh⟩
      rw [h0] at this; cases this
    obtain ⟨hs, raw, hhits⟩ : ∃ hs raw, b.filter (hits cl.env.J cond) = hs ++ [raw] :=
      ⟨_, _, (List.dropLast_concat_getLast hne).symm⟩
    have hraw : hits cl.env.J cond raw = true := by
      have : raw ∈ b.filter (hits cl.env.J cond) := by rw [hhits]; simp
      exact (List.mem_filter.1 this).2
    obtain ⟨j, hj, hc⟩ := hits_parse hraw
    refine ⟨j, ?_, hc⟩
    rw [wait_run_batches hqn (fun y hy => ⟨hdec' y (.inl hy), hn1 y hy⟩) (fun y hy => hdec' y (.inr hy)) hhits hj hst
      hm1]

/-- **C55**.  Accounting for every condition, stream and outcome, including failures: the messages held before and those
received meanwhile are the messages held afterwards, in the same relative order, plus messages satisfying the condition;
if the wait returns, exactly one of these is the message returned, all others having been dropped.  Nothing is sent. -/
theorem C55_account (cond : Json → Res Bool) (s : Dap σ) :
    ∃ r s' new W L, (waitForMessage cl cond).run s = (r, s') ∧ s'.rcvd = s.rcvd ++ new ∧
      s'.waited = s.waited ++ W ∧ s'.lost = s.lost ++ L ∧
      (s.queue ++ s.stopped ++ new).Perm (s'.queue ++ s'.stopped ++ (L ++ W)) ∧
      (s'.queue ++ s'.stopped).Sublist (s.queue ++ s.stopped ++ new) ∧
      (∀ x ∈ L ++ W, hits cl.env.J cond x = true) ∧
      (∀ j, r = .ok j → ∃ raw, W = [raw] ∧ cl.env.J.parse raw = some j ∧ cond j = .ok true) ∧
      ((∀ j, r ≠ .ok j) → W = []) ∧ s'.out = s.out := by
  rcases wait_cases (cl := cl) cond s with ⟨pre, post, raw, j, h1, h2, h3, h4, h5⟩ | ⟨h1, ⟨read, _⟩, new, used, L, W, e1, e2, e3, e4, e5, e6, e7, e8⟩
  · refine ⟨.ok j, _, [], [raw], [], h5, by simp, rfl, by simp, ?_, ?_, ?_, ?_, ?_, rfl⟩
    · rw [h1]
      simp only [List.append_nil, List.append_assoc, List.cons_append, List.nil_append]
      refine List.Perm.append_left pre ?_
      refine (List.perm_append_comm (l₁ := [raw]) (l₂ := post ++ s.stopped)).trans ?_
      rw [List.append_assoc]
    · rw [h1]
      simp only [List.append_nil, List.append_assoc, List.cons_append]
      exact List.Sublist.append_left (List.sublist_cons_self _ _) _
    · intro x hx
      simp only [List.nil_append, List.mem_singleton] at hx
      subst hx
      simp [hits, h2, h3]
    · intro j' hj'
      cases hj'
      exact ⟨raw, rfl, h2, h3⟩
    · intro hne; exact absurd rfl (hne j)
  · refine ⟨_, _, new, W, L, rfl, e1, e6, e5, ?_, ?_, ?_, ?_, e8, h1.out⟩
    · rw [e3, List.append_assoc, e2, ← e4, List.append_assoc, List.append_assoc]
      refine List.Perm.append_left _ ?_
      have hp : used.Perm (used.filter (fun x => !hits cl.env.J cond x) ++ used.filter (hits cl.env.J cond)) :=
        (List.filter_append_perm (hits cl.env.J cond) used).symm.trans List.perm_append_comm
      refine (hp.append_right _).trans ?_
      rw [List.append_assoc]
      exact List.Perm.append_left _ List.perm_append_comm
    · rw [e3, List.append_assoc, List.append_assoc, e2]
      exact List.Sublist.append_left (List.Sublist.append_right List.filter_sublist _) _
    · intro x hx
      rw [← e4] at hx
      exact (List.mem_filter.1 hx).2
    · intro j hj
      exact (e7 j hj).2

/-- Two messages in one chunk, then a third one. -/
def waitChunks : List Str :=
  [lit "Content-Length: 7\r\n\r\n{\"n\":0}", lit "Content-Length: 7\r\n\r\n{\"n\":2}Content-Length: 13\r\n\r\n{\"n\":2,\"m\":1}",
   lit "Content-Length: 7\r\n\r\n{\"n\":3}"]

theorem waitChunks_batches : Batches waitChunks ([[lit "{\"n\":0}"]] ++ [[lit "{\"n\":2}", lit "{\"n\":2,\"m\":1}"]])
    [lit "Content-Length: 7\r\n\r\n{\"n\":3}"] := by
  refine .cons (cs₁ := waitChunks.drop 1) (by decide +kernel) (.cons (cs₁ := waitChunks.drop 2) (by decide +kernel) .nil)

/-- **C55**, what the code does when several messages of a batch match: the earlier one is dropped, so the wait does
lose a message. -/
theorem C55_lost_witness : ∃ (s : Dap Nat) (s' : Dap Nat) (j : Json), s.lost = [] ∧ s.stopped = [] ∧
    (waitForMessage sampleClient (wantN 2)).run s = (.ok j, s') ∧ s'.lost = [lit "{\"n\":2}"] ∧
    s'.queue = [lit "{\"n\":1}", lit "{\"n\":0}"] ∧ lit "{\"n\":2}" ∈ s'.rcvd := by
  refine ⟨sampleDap [lit "{\"n\":1}"] waitChunks false, _, .obj [(lit "m", .int 1), (lit "n", .int 2)], rfl, rfl,
    C55_read (bs := [[lit "{\"n\":0}"]]) (b := [lit "{\"n\":2}", lit "{\"n\":2,\"m\":1}"]) (hs := [lit "{\"n\":2}"])
      (raw := lit "{\"n\":2,\"m\":1}") ?_ ?_ ?_ (by decide +kernel) (by decide +kernel) rfl waitChunks_batches, ?_, ?_, ?_⟩
  · intro x hx
    simp only [sampleDap, List.mem_singleton] at hx
    subst hx
    exact ⟨⟨.obj [(lit "n", .int 1)], false, by decide +kernel, by decide +kernel⟩, by decide +kernel⟩
  · intro x hx
    simp only [List.flatten_cons, List.flatten_nil, List.append_nil, List.mem_singleton] at hx
    subst hx
    exact ⟨⟨.obj [(lit "n", .int 0)], false, by decide +kernel, by decide +kernel⟩, by decide +kernel⟩
  · intro x hx
    simp only [List.mem_cons, List.not_mem_nil, or_false] at hx
    rcases hx with rfl | rfl
    · exact ⟨.obj [(lit "n", .int 2)], true, by decide +kernel, by decide +kernel⟩
    · exact ⟨.obj [(lit "m", .int 1), (lit "n", .int 2)], true, by decide +kernel, by decide +kernel⟩
  · rfl
  · decide +kernel
  · decide +kernel

/-- The three messages sent by the adapter, cut in the middle of the second one. -/
def singleChunks : List Str :=
  [lit "Content-Length: 7\r\n\r\n{\"n\":0}Content-Length: 7\r\n\r\n{\"n", lit "\":2}", lit "Content-Length: 7\r\n\r\n{\"n\":3}"]

def singleMsgs : List DapMsg := [plainMsg (lit "{\"n\":0}"), plainMsg (lit "{\"n\":2}"), plainMsg (lit "{\"n\":3}")]

theorem singleMsgs_ok : ∀ m ∈ singleMsgs, m.Ok := by
  intro m hm
  simp only [singleMsgs, List.mem_cons, List.not_mem_nil, or_false] at hm
  rcases hm with rfl | rfl | rfl <;> exact plainMsg_ok (by decide)

theorem singleMsgs_decided : ∀ x ∈ (sampleDap [lit "{\"n\":1}"] singleChunks false).queue ++ bodies singleMsgs,
    Decided sampleClient.env.J (wantN 2) x := by
  intro x hx
  have hx : x ∈ [lit "{\"n\":1}", lit "{\"n\":0}", lit "{\"n\":2}", lit "{\"n\":3}"] := hx
  simp only [List.mem_cons, List.not_mem_nil, or_false] at hx
  rcases hx with rfl | rfl | rfl | rfl
  · exact ⟨.obj [(lit "n", .int 1)], false, by decide +kernel, by decide +kernel⟩
  · exact ⟨.obj [(lit "n", .int 0)], false, by decide +kernel, by decide +kernel⟩
  · exact ⟨.obj [(lit "n", .int 2)], true, by decide +kernel, by decide +kernel⟩
  · exact ⟨.obj [(lit "n", .int 3)], false, by decide +kernel, by decide +kernel⟩

example : ∃ j ms' s', sampleClient.env.J.parse (lit "{\"n\":2}") = some j ∧ wantN 2 j = .ok true ∧
    (waitForMessage sampleClient (wantN 2)).run (sampleDap [lit "{\"n\":1}"] singleChunks false) = (.ok j, s') ∧
    (∀ m ∈ ms', m.Ok) ∧ s'.tcpIn.flatten = wireOfMsgs ms' ∧ s'.stopped = [] ∧ s'.lost = [] ∧ s'.out = [] ∧
    s'.queue ++ bodies ms' = [lit "{\"n\":1}", lit "{\"n\":0}", lit "{\"n\":3}"] := by
  obtain ⟨j, ms', s', h1, h2, h3, h4, h5, h6, h7, h8, h9⟩ := C55_single (cl := sampleClient) (cond := wantN 2) singleMsgs_ok
    (s := sampleDap [lit "{\"n\":1}"] singleChunks false) (raw := lit "{\"n\":2}") (by decide +kernel) rfl
    singleMsgs_decided (by decide +kernel)
  refine ⟨j, ms', s', h1, h2, h3, h4, h5, h6, h7, h8, ?_⟩
  rw [h9]
  decide +kernel

example : ∃ j, ((waitForMessage sampleClient (wantN 2)).run (sampleDap [lit "{\"n\":1}"] singleChunks false)).1 = .ok j ∧
    wantN 2 j = .ok true :=
  C55_returns singleMsgs_ok (by decide +kernel) rfl singleMsgs_decided ⟨lit "{\"n\":2}", by decide +kernel, by decide +kernel⟩

end Xeus
