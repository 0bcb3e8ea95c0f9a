import Verif.Link.RoundLemmas
import Verif.Link.LiveSample

/-!
# The debugger and the debug adapter client together: properties C87 to C90

The adapter sends messages of the adapter protocol, and no more answers than requests it has been sent; the code of the kernel
author does not fail.  The two threads run interleaved in any way, and the adapter cuts what it sends in pieces as it likes.
-/

namespace Xeus.Link

open Xeus Xeus.Spec K Link.Spec

variable {τ σ : Type} {d : Dbg.Debugger τ} {cl : Client σ} {u : τ} {files : Str → Option Str} {v : σ} {s t : Link τ σ}

/-! ## C87 -/

/-- **C87**.  The thread of the client survives: no exception leaves `start_debugger`, and nothing undefined happens there. -/
theorem C87_survives (hd : Dbg.Spec.Local d) (hJ : cl.env.J = d.J) (hK : LawfulCodec d.J) (hE : d.J.parse [] = none)
    (hcl : CivilClient cl) (h : Reach d cl u files v s) (hc : CanonHeaders s.log) (hp : PoliteAdapter d.J s.log) :
    ∀ r, s.pc ≠ .failed r ∧ (s.pc = .io (.done r) ∨ s.pc = .msg (.done r) → r = .ok ()) := by
  obtain ⟨g, q, hl⟩ := live_reach hd hJ hK hE hcl h hc hp
  unfold LiveG at hl
  intro r
  refine ⟨fun hf => ?_, fun hf => ?_⟩
  · rw [hf] at hl; exact hl
  · rcases hf with hf | hf <;> rw [hf] at hl <;> obtain ⟨⟨_, h, _⟩, _⟩ := hl <;> exact h

section Examples
open Sample Dbg.Sample

/-- Two requests and an event later, the thread of the client is alive. -/
example : ∃ s, Reach debugger client 0 noFiles 0 s ∧ (received (sinceStart s.log)).length = 249 ∧ ∀ r, s.pc ≠ .failed r := by
  obtain ⟨s, h, hl⟩ := session_reach
  exact ⟨s, h, by rw [hl]; decide +kernel, fun r => (C87_survives debugger_local rfl stdCodec_lawful (by decide +kernel) client_civil h
    (hl ▸ session_canon) (hl ▸ session_polite) r).1⟩

/-- An adapter that answers a request twice ends the thread: `m_controller.send` throws, as nothing is to be answered. -/
theorem C87_rude_witness : ∃ s e, Reach debugger client 0 noFiles 0 s ∧ CanonHeaders s.log ∧ s.pc = .failed (.exc e) := by
  have h : (play debugger client begin_ rude).any (fun s => (match s.pc with | .msg (.done (.exc _)) => true | _ => false) &&
      s.log.all (fun | .call header _ => header.canon | _ => true)) = true := by decide +kernel
  rcases hp : play debugger client begin_ rude with _ | s
  · rw [hp] at h; cases h
  · rw [hp] at h
    simp only [Option.any_some, Bool.and_eq_true] at h
    obtain ⟨h1, h2⟩ := h
    split at h1
    · rename_i e he
      exact ⟨{ s with pc := .failed (.exc e) }, e, .step (play_reach _ _ .init hp) (.fail (.inr he) (by simp)), canon_of h2, rfl⟩
    · cases h1

end Examples

/-! ## C88 -/

theorem wire_nil {ms : List DapMsg} (hms : ∀ m ∈ ms, m.Ok) (h : wireOfMsgs ms = []) : ms = [] := by
  cases ms with
  | nil => rfl
  | cons m ms =>
    have := msgOk_pos (hms m List.mem_cons_self)
    rw [wireOfMsgs_cons] at h
    have h' := congrArg List.length h
    simp only [List.length_append, List.length_nil] at h' this
    omega

/-- **C88**.  The client, in the middle of its work, waits for nothing but the rest of a message that the adapter has begun to send,
or, if the pieces that it has not read yet are all empty, for the next message of the adapter. -/
theorem C88_blocked (hd : Dbg.Spec.Local d) (hJ : cl.env.J = d.J) (hK : LawfulCodec d.J) (hE : d.J.parse [] = none)
    (hcl : CivilClient cl) (h : Reach d cl u files v s) (hc : CanonHeaders s.log) (hp : PoliteAdapter d.J s.log)
    {p : K (Dap σ) Unit} (hpc : s.pc = .io p ∨ s.pc = .msg p) (hnd : ∀ r, p ≠ .done r) (hb : ¬ Ready p s.dap) :
    s.dap.tcpIn ≠ [] ∧ (s.dap.tcpIn.flatten = [] ∨ MidMessage (sinceStart s.log)) := by
  obtain ⟨g, q, hl⟩ := live_reach hd hJ hK hE hcl h hc hp
  have hpar := good_parent hJ hK hE (inv_reach hd h) hc
  have key : ∀ Q : Lv → Unit → Prop, SafeC cl Q p g → Now g s.dap → Count cl.env.J (sinceStart s.log) s.dap.tcpIn g →
      s.dap.tcpIn ≠ [] ∧ (s.dap.tcpIn.flatten = [] ∨ MidMessage (sinceStart s.log)) := by
    intro Q h1 h2 h3
    rcases h1.stuck (lok hpar h2 h3 (hJ ▸ hp)) hb with ⟨a, rfl, _⟩ | ⟨h4, h5⟩
    · exact absurd rfl (hnd _)
    · refine ⟨h2.tcp h4, ?_⟩
      by_cases hm : MidMessage (sinceStart s.log)
      · exact .inr hm
      · left
        unfold MidMessage at hm
        simp only [Classical.not_forall, Decidable.not_not] at hm
        obtain ⟨ms, hms, hw⟩ := hm
        obtain ⟨n, k1, _, _⟩ := h3.stream ms hms (by rw [hw]; exact List.prefix_refl _)
        have e : wireOfMsgs ms = wireOfMsgs (ms.take n) ++ wireOfMsgs (ms.drop n) := by
          rw [← wireOfMsgs_append, List.take_append_drop]
        rw [k1, e, List.append_cancel_left_eq] at hw
        have hms' : ∀ m ∈ ms.drop n, m.Ok := fun m hm => hms m (List.mem_of_mem_drop hm)
        rcases handleTcp_cases hms' s.dap.queue (by rw [hw]; exact List.prefix_refl _) with ⟨_, _, _, _, h6⟩ | ⟨h6, _⟩
        · rw [h5] at h6; cases h6
        · rw [hw]
          cases hdrop : ms.drop n with
          | nil => rfl
          | cons m r =>
            refine absurd ⟨?_, Nat.le_refl _, Nat.le_refl _, ?_⟩ (h6 s.dap.tcpIn.length (ms.drop n).length)
            · rw [hdrop]; exact Nat.succ_pos _
            · rw [List.take_length, List.take_length, hw]
  unfold LiveG at hl
  rcases hpc with hpc | hpc <;> rw [hpc] at hl
  · exact key _ hl.1 hl.2.1 hl.2.2
  · exact key _ hl.1 hl.2.1 hl.2.2

theorem received_step (hs : Step d cl s t) : received s.log <+: received t.log := by
  obtain ⟨es, he⟩ := log_grows hs
  rw [← he, received_append]
  exact List.prefix_append _ _

theorem received_after (ha : After d cl s t) : received s.log <+: received t.log := by
  induction ha with
  | now => exact List.prefix_refl _
  | step _ hs ih => exact ih.trans (received_step hs)

/-- **C88**, the other side: a piece without content, as the socket delivers one when the connection is made, makes the client deaf.
If it was all there was to read, then whatever the debugger has sent waits until the adapter speaks: nothing else happens. -/
theorem C88_deaf (hd : Dbg.Spec.Local d) (h : Reach d cl u files v s) (hpc : s.pc = .io (afterPoll cl false false true))
    (he : s.dap.tcpIn.flatten = []) (hw : s.dap.hdrIn ≠ [] ∨ s.dap.ctlIn ≠ []) (ha : After d cl s t)
    (hr : received t.log = received s.log) :
    (∃ k, t.log = s.log ++ List.replicate k (.sent [])) ∧ t.pc = s.pc ∧ t.ctl = s.ctl := by
  suffices hall : t.pc = s.pc ∧ t.ctl = s.ctl ∧ t.dap.tcpIn.flatten = [] ∧ t.dap.hdrIn = s.dap.hdrIn ∧ t.dap.ctlIn = s.dap.ctlIn ∧
      Inv d cl t ∧ ∃ k, t.log = s.log ++ List.replicate k (.sent []) from ⟨hall.2.2.2.2.2.2, hall.1, hall.2.1⟩
  induction ha with
  | now => exact ⟨rfl, rfl, he, rfl, rfl, inv_reach hd h, 0, by simp⟩
  | @step t t' ha hs ih =>
    have hrt : received t.log = received s.log := by
      have h1 := received_after ha
      have h2 := received_step hs
      rw [hr] at h2
      exact (h1.eq_of_length_le h2.length_le).symm
    obtain ⟨h1, h2, h3, h4, h5, h6, k, h7⟩ := ih hrt
    obtain ⟨p, hp, hnd, hnr⟩ := held h6 (by rw [h4, h5]; exact hw)
    have hinv := inv_step hd h6 hs
    have hblk : ¬ Ready (afterPoll cl false false true) t.dap := by
      have : handleTcp t.dap.queue t.dap.tcpIn = .blocked := by
        rcases handleTcp_cases (ms := []) (fun m hm => by cases hm) t.dap.queue (by rw [h3]; exact List.nil_prefix) with
          ⟨_, n, ⟨h8, h9, _⟩, _⟩ | ⟨_, h8⟩
        · simp at h9; omega
        · exact h8
      intro hrd
      refine hrd ?_
      simp only [this]
    cases hs with
    | call header m hf => rw [hp] at hf; cases hf
    | ret hf => rw [hp] at hf; cases hf; exact absurd rfl (hnd _)
    | dbg hf hrd _ _ => rw [hp] at hf; cases hf; exact absurd hrd hnr
    | start _ hf hrd _ _ _ _ => rw [hp] at hf; cases hf; exact absurd hrd hnr
    | io hf hrd _ => rw [h1, hpc] at hf; cases hf; exact absurd hrd hblk
    | msg hf _ _ => rw [h1, hpc] at hf; cases hf
    | poll hf _ _ => rw [h1, hpc] at hf; cases hf
    | polled hf => rw [h1, hpc] at hf; cases hf
    | next hf _ => rw [h1, hpc] at hf; cases hf
    | handled hf => rw [h1, hpc] at hf; cases hf
    | emptied hf _ => rw [h1, hpc] at hf; cases hf
    | fail hf _ => rcases hf with hf | hf <;> rw [h1, hpc] at hf <;> cases hf
    | leave hf _ => rw [h1, hpc] at hf; cases hf
    | arrive b _ =>
      have hb : b = [] := by
        have e : received [LinkEv.sent b] = b := by simp [received]
        have : received (t.log ++ [.sent b]) = received s.log := hr
        rw [received_append, hrt, e] at this
        simpa using this
      subst hb
      refine ⟨h1, h2, by simpa using h3, h4, h5, hinv, k + 1, ?_⟩
      show t.log ++ [_] = _
      rw [h7, List.replicate_succ', List.append_assoc]
    | user _ _ _ _ => exact ⟨h1, h2, h3, h4, h5, hinv, k, h7⟩

section Examples
open Sample Dbg.Sample

/-- The adapter has sent 30 bytes of its answer: the client waits for the rest. -/
example : ∃ s p, Reach debugger client 0 noFiles 0 s ∧ s.pc = .io p ∧ (∀ r, p ≠ .done r) ∧ ¬ Ready p s.dap ∧
    MidMessage (sinceStart s.log) ∧ (received (sinceStart s.log)).length = 30 := by
  have h : (play debugger client begin_ half).any (fun s => (match s.pc with | .io p => waits p s.dap | _ => false) &&
      (s.log.all (fun | .call header _ => header.canon | _ => true) && (politeCheck [printJson (response "initialize")] s.log &&
      (decide (s.dap.tcpIn.flatten.length = 30) && decide ((received (sinceStart s.log)).length = 30))))) = true := by decide +kernel
  rcases hp : play debugger client begin_ half with _ | s
  · rw [hp] at h; cases h
  · rw [hp] at h
    simp only [Option.any_some, Bool.and_eq_true, decide_eq_true_eq] at h
    obtain ⟨h1, h2, h3, h4, h5⟩ := h
    split at h1
    · rename_i p hpc
      obtain ⟨h6, h7⟩ := waits_sound h1
      have hr : Reach debugger client 0 noFiles 0 s := play_reach _ _ .init hp
      obtain ⟨_, h8⟩ := C88_blocked debugger_local rfl stdCodec_lawful (by decide +kernel) client_civil hr (canon_of h2) (polite_of h3)
        (.inl hpc) h6 h7
      exact ⟨s, p, hr, hpc, h6, h7, h8.resolve_left (fun hx => by rw [hx] at h4; cases h4), h5⟩
    · cases h1

/-- With an adapter that is polite all the time: the connection is made, the debugger sends a header, and the client, which reads
from the adapter, does not take it.  Nothing else happens, even if another empty piece comes. -/
theorem C88_deaf_witness : ∃ s t, Reach debugger client 0 noFiles 0 s ∧ CanonHeaders s.log ∧ PoliteAdapter stdCodec s.log ∧
    s.pc = .io (afterPoll client false false true) ∧ s.dap.tcpIn.flatten = [] ∧ s.dap.hdrIn ≠ [] ∧
    After debugger client s t ∧ t.log = s.log ++ [.sent []] ∧
    (∀ t', After debugger client s t' → received t'.log = received s.log → t'.pc = s.pc ∧ t'.ctl = s.ctl) := by
  have h : (walk begin_ early).any (fun s => s.log.all (fun | .call header _ => header.canon | _ => true) && (politeCheck [] s.log &&
      (decide (s.dap.tcpIn.flatten = []) && !s.dap.hdrIn.isEmpty))) = true := by decide +kernel
  rcases hp : walk begin_ early with _ | s
  · rw [hp] at h; cases h
  · rw [hp] at h
    simp only [Option.any_some, Bool.and_eq_true, decide_eq_true_eq] at h
    obtain ⟨h1, h2, h3, h4⟩ := h
    have h4 : s.dap.hdrIn ≠ [] := by intro hx; rw [hx] at h4; cases h4
    have hr : Reach debugger client 0 noFiles 0 s := walk_reach .init hp
    have hpc := early_pc hp
    exact ⟨s, _, hr, canon_of h1, polite_of h2, hpc, h3, h4, .step .now (.arrive [] (by rw [hpc]; simp)), rfl,
      fun t' ha hrec => (C88_deaf debugger_local hr hpc h3 (.inl h4) ha hrec).2⟩

end Examples

/-! ## C89 -/

/-- **C89**.  Left alone, the two threads come to rest: there is no infinite sequence of their steps. -/
theorem C89_comes_to_rest (hd : Dbg.Spec.Local d) (hJ : cl.env.J = d.J) (hK : LawfulCodec d.J) (hE : d.J.parse [] = none)
    (hcl : CivilClient cl) (h : Reach d cl u files v s) (hc : CanonHeaders s.log) (hp : PoliteAdapter d.J s.log) :
    Acc (fun t' t => Internal d cl t t') s :=
  calm_rests hd hJ hK hE hcl ⟨inv_reach hd h, hc, hp⟩ (live_reach hd hJ hK hE hcl h hc hp)

/-- **C89**.  When they rest and the client has not ended, then either it waits for the adapter to go on speaking, or everything
has been dealt with: every request of the debugger has been passed on to the adapter, and every answer of the adapter to the
debugger, unchanged and in order. -/
theorem C89_at_rest (hd : Dbg.Spec.Local d) (hJ : cl.env.J = d.J) (hK : LawfulCodec d.J) (hE : d.J.parse [] = none)
    (hcl : CivilClient cl) (h : Reach d cl u files v s) (hc : CanonHeaders s.log) (hp : PoliteAdapter d.J s.log)
    (hrest : ∀ t, ¬ Internal d cl s t) (hoff : s.pc ≠ .off) :
    (s.dap.tcpIn ≠ [] ∧ (s.dap.tcpIn.flatten = [] ∨ MidMessage (sinceStart s.log))) ∨
    (s.pc = .top ∧ s.dap.hdrIn = [] ∧ s.dap.ctlIn = [] ∧ s.dap.tcpIn = [] ∧ s.dap.queue = [] ∧
      passed (sinceStart s.log) = forwarded (sinceStart s.log) ∧
      ∀ ms : List DapMsg, (∀ m ∈ ms, m.Ok) → received (sinceStart s.log) = wireOfMsgs ms → replied (sinceStart s.log) = answers d.J ms) := by
  have hlive := live_reach hd hJ hK hE hcl h hc hp
  have hblk := fun p h1 h2 h3 => C88_blocked hd hJ hK hE hcl h hc hp (p := p) h1 h2 h3
  have hsurv := C87_survives hd hJ hK hE hcl h hc hp
  obtain ⟨hbt, _, hfree⟩ := inv_between (inv_reach hd h)
  -- in the middle of some work
  have work : ∀ p, s.pc = .io p ∨ s.pc = .msg p → s.dap.tcpIn ≠ [] ∧ (s.dap.tcpIn.flatten = [] ∨ MidMessage (sinceStart s.log)) := by
    intro p hpc
    by_cases hd' : ∃ r, p = .done r
    · obtain ⟨r, rfl⟩ := hd'
      have hr := (hsurv r).2 hpc
      subst hr
      rcases hpc with hpc | hpc
      · exact absurd ⟨.polled hpc, .inl (by rw [hpc]; simp)⟩ (hrest { s with pc := .queue })
      · exact absurd ⟨.handled hpc, .inl (by rw [hpc]; simp)⟩ (hrest { s with pc := .queue })
    · refine hblk p hpc (fun r hr => hd' ⟨r, hr⟩) fun hrd => ?_
      cases p with
      | done r => exact hd' ⟨r, rfl⟩
      | act F k =>
        rcases hst : (K.act F k).step s.dap with _ | ⟨p', c⟩
        · cases hst
        · have hne := sub_ne (sub_step hst)
          rcases hpc with hpc | hpc
          · exact absurd ⟨.io hpc hrd hst, .inl (by rw [hpc]; intro hx; exact hne (by injection hx))⟩ (hrest _)
          · exact absurd ⟨.msg hpc hrd hst, .inl (by rw [hpc]; intro hx; exact hne (by injection hx))⟩ (hrest _)
  cases hpc : s.pc with
  | off => exact absurd hpc hoff
  | failed r => exact absurd hpc (hsurv r).1
  | io p => exact .inl (work p (.inl hpc))
  | msg p => exact .inl (work p (.inr hpc))
  | queue =>
    exfalso
    cases hq : s.dap.queue with
    | nil => exact hrest { s with pc := .top } ⟨.emptied hpc hq, .inl (by rw [hpc]; simp)⟩
    | cons raw q => exact hrest { s with pc := .msg (processOne cl raw) } ⟨.next hpc hq, .inl (by rw [hpc]; simp)⟩
  | top =>
    right
    have hnp : ∀ a b c, ¬ PollOk s.dap a b c := by
      intro a b c hok
      cases hrs : s.dap.requestStop with
      | true => exact hrest _ ⟨.leave hpc hrs, .inl (by rw [hpc]; simp)⟩
      | false => exact hrest _ ⟨.poll hpc hrs hok, .inl (by rw [hpc]; simp)⟩
    have h1 : s.dap.hdrIn = [] := Classical.byContradiction fun hx =>
      hnp true false false ⟨rfl, fun _ => hx, fun h => (by cases h), fun h => (by cases h)⟩
    have h2 : s.dap.ctlIn = [] := Classical.byContradiction fun hx =>
      hnp false true false ⟨rfl, fun h => (by cases h), fun _ => ⟨hx, hfree hx⟩, fun h => (by cases h)⟩
    have h3 : s.dap.tcpIn = [] := Classical.byContradiction fun hx =>
      hnp false false true ⟨rfl, fun h => (by cases h), fun h => (by cases h), fun _ => hx⟩
    obtain ⟨g, q, hl⟩ := hlive
    unfold LiveG at hl
    rw [hpc] at hl
    obtain ⟨h4, h5, h6, h7⟩ := hl
    refine ⟨rfl, h1, h2, h3, h4, ?_, fun ms hms hw => ?_⟩
    · have := h7.sent
      rw [h5.pend, Option.toList_none, List.append_nil] at this
      rw [hbt, h2, List.append_nil, this]
    · obtain ⟨n, k1, k2, _⟩ := h7.stream ms hms (by rw [hw]; exact List.prefix_refl _)
      rw [h5.left, ← h6.queue, h4] at k2
      have e : wireOfMsgs ms = wireOfMsgs (ms.take n) ++ wireOfMsgs (ms.drop n) := by
        rw [← wireOfMsgs_append, List.take_append_drop]
      rw [hw, h3, e, List.append_cancel_left_eq] at k1
      have hnil := wire_nil (fun m hm => hms m (List.mem_of_mem_drop hm)) k1
      have : ms.take n = ms := by
        conv => rhs; rw [← List.take_append_drop n ms]
        rw [hnil, List.append_nil]
      rw [this, hJ] at k2
      rw [k2]; exact (List.append_nil _).symm

/-- A step that is none of the two threads': a request of the frontend, something from the adapter, or the code of the user. -/
theorem C89_others (hs : Step d cl s t) (hi : ¬ Internal d cl s t) :
    (∃ header m, t.log = s.log ++ [.call header m]) ∨ (∃ b, t.log = s.log ++ [.sent b]) ∨
    (t.log = s.log ∧ ∃ u' threads' files' v', t.dbg = { s.dbg with st := u', threads := threads', files := files' } ∧
      t.dap = { s.dap with st := v' }) := by
  have no : ∀ {P : Prop}, t.pc ≠ s.pc → P := fun h => absurd ⟨hs, .inl h⟩ hi
  have no' : ∀ {P : Prop}, s.ctl ≠ none → t.ctl ≠ s.ctl → P := fun h h' => absurd ⟨hs, .inr ⟨h, h'⟩⟩ hi
  cases hs with
  | call header m _ => exact .inl ⟨header, m, rfl⟩
  | arrive b _ => exact .inr (.inl ⟨b, rfl⟩)
  | user a b c e => exact .inr (.inr ⟨rfl, a, b, c, e, rfl, rfl⟩)
  | ret hp _ _ => exact no' (by rw [hp]; simp) (by rw [hp]; simp)
  | dbg hp _ hst _ => exact no' (by rw [hp]; simp) (by rw [hp]; intro hx; exact sub_ne (sub_step hst) (by injection hx))
  | start _ hp _ hst _ _ _ => exact no' (by rw [hp]; simp) (by rw [hp]; intro hx; exact sub_ne (sub_step hst) (by injection hx))
  | io hp _ hst => exact no (by rw [hp]; intro hx; exact sub_ne (sub_step hst) (by injection hx))
  | msg hp _ hst => exact no (by rw [hp]; intro hx; exact sub_ne (sub_step hst) (by injection hx))
  | poll hp _ _ => exact no (by rw [hp]; simp)
  | polled hp => exact no (by rw [hp]; simp)
  | next hp _ => exact no (by rw [hp]; simp)
  | handled hp => exact no (by rw [hp]; simp)
  | emptied hp _ => exact no (by rw [hp]; simp)
  | fail hp _ => exact no (by rcases hp with hp | hp <;> rw [hp] <;> simp)
  | leave hp _ => exact no (by rw [hp]; simp)

section Examples
open Sample Dbg.Sample

/-- At the end of the session everything has been dealt with. -/
example : ∃ s, Reach debugger client 0 noFiles 0 s ∧ (∀ t, ¬ Internal debugger client s t) ∧
    Acc (fun t' t => Internal debugger client t t') s ∧ s.pc = .top ∧
    passed (sinceStart s.log) = forwarded (sinceStart s.log) ∧ (forwarded (sinceStart s.log)).length = 2 ∧
    replied (sinceStart s.log) = answers stdCodec (sessionTexts.map plainMsg) := by
  have h : (play debugger client begin_ Sample.session).any (fun s => s.log.all (fun | .call header _ => header.canon | _ => true) &&
      (politeCheck sessionTexts s.log && ((match s.pc with | .top => true | _ => false) && (s.ctl.isNone &&
      (!s.dap.requestStop && (s.dap.hdrIn.isEmpty && (s.dap.ctlIn.isEmpty && (s.dap.tcpIn.isEmpty &&
      (decide ((forwarded (sinceStart s.log)).length = 2) &&
        decide (received (sinceStart s.log) = wireOfMsgs (sessionTexts.map plainMsg))))))))))) = true := by
    decide +kernel
  rcases hp : play debugger client begin_ Sample.session with _ | s
  · rw [hp] at h; cases h
  · rw [hp] at h
    simp only [Option.any_some, Bool.and_eq_true, List.isEmpty_iff, decide_eq_true_eq, Bool.not_eq_true', Option.isNone_iff_eq_none] at h
    obtain ⟨h1, h2, h3, h4, h5, h6, h7, h8, h9, h10⟩ := h
    have hr : Reach debugger client 0 noFiles 0 s := play_reach _ _ .init hp
    have htop : s.pc = .top := by
      clear h10 h9 h2 h1
      split at h3
      · rename_i hx; exact hx
      · cases h3
    have hrest := rests (d := debugger) (cl := client) h4 htop h5 h6 h7 h8
    have hacc := C89_comes_to_rest debugger_local rfl stdCodec_lawful (by decide +kernel) client_civil hr (canon_of h1) (polite_of h2)
    rcases C89_at_rest debugger_local rfl stdCodec_lawful (by decide +kernel) client_civil hr (canon_of h1) (polite_of h2) hrest
      (by rw [htop]; simp) with ⟨hx, _⟩ | ⟨_, _, _, _, _, h11, h12⟩
    · exact absurd h8 hx
    · exact ⟨s, hr, hrest, hacc, htop, h11, h9, h12 (sessionTexts.map plainMsg) session_ok h10⟩

end Examples

/-! ## C90 -/

/-- **C90**.  Requests reach the adapter unchanged and in the order in which the debugger sent them, and at all times all but at most
the last one have; the answers that the debugger has received are the first answers that the adapter has sent on this connection,
unchanged and in order, however the bytes were cut. -/
theorem C90_in_order (hd : Dbg.Spec.Local d) (hJ : cl.env.J = d.J) (hK : LawfulCodec d.J) (hE : d.J.parse [] = none)
    (hcl : CivilClient cl) (h : Reach d cl u files v s) (hc : CanonHeaders s.log) (hp : PoliteAdapter d.J s.log) :
    (∃ rest, forwarded (sinceStart s.log) = passed (sinceStart s.log) ++ rest ∧ rest.length ≤ 1) ∧
    (∀ ms : List DapMsg, (∀ m ∈ ms, m.Ok) → received (sinceStart s.log) <+: wireOfMsgs ms →
      returned (sinceStart s.log) <+: answers d.J ms) ∧
    (returned (sinceStart s.log)).length ≤ (passed (sinceStart s.log)).length := by
  obtain ⟨hb1, hb2, hfree⟩ := inv_between (inv_reach hd h)
  have hone := ctl_one (inv_reach hd h)
  obtain ⟨g, q, hl⟩ := live_reach hd hJ hK hE hcl h hc hp
  have hret : returned (sinceStart s.log) <+: replied (sinceStart s.log) := by rw [hb2]; exact List.prefix_append _ _
  have fin : (∃ rest, forwarded (sinceStart s.log) = passed (sinceStart s.log) ++ rest ∧ rest.length ≤ 1) →
      (∀ ms : List DapMsg, (∀ m ∈ ms, m.Ok) → received (sinceStart s.log) <+: wireOfMsgs ms →
        replied (sinceStart s.log) <+: answers cl.env.J ms) →
      (∃ rest, forwarded (sinceStart s.log) = passed (sinceStart s.log) ++ rest ∧ rest.length ≤ 1) ∧
      (∀ ms : List DapMsg, (∀ m ∈ ms, m.Ok) → received (sinceStart s.log) <+: wireOfMsgs ms →
        returned (sinceStart s.log) <+: answers d.J ms) ∧
      (returned (sinceStart s.log)).length ≤ (passed (sinceStart s.log)).length := by
    intro h1 h2
    obtain ⟨ms, k1, k2, k3⟩ := hp s.log (List.prefix_refl _)
    have h3 : ∀ ms : List DapMsg, (∀ m ∈ ms, m.Ok) → received (sinceStart s.log) <+: wireOfMsgs ms →
        returned (sinceStart s.log) <+: answers d.J ms := fun ms hms hpre => hret.trans (hJ ▸ h2 ms hms hpre)
    exact ⟨h1, h3, Nat.le_trans (h3 ms (fun m hm => (k1 m hm).1) k2).length_le k3⟩
  have ofCount : Count cl.env.J (sinceStart s.log) s.dap.tcpIn g → Now g s.dap → _ := fun hcnt hnow => by
    refine fin ?_ fun ms hms hpre => hcnt.answered hms hpre
    refine ⟨g.pend.toList ++ s.dap.ctlIn, ?_, ?_⟩
    · rw [hb1, ← hcnt.sent, List.append_assoc]
    · have ht := hcnt.took
      have hs := congrArg List.length hcnt.sent
      rw [List.length_append]
      cases hci : s.dap.ctlIn with
      | nil => cases g.pend <;> simp
      | cons x xs =>
        have hne : s.dap.ctlIn ≠ [] := by rw [hci]; simp
        have hdue := hfree hne
        rw [hnow.due] at hdue
        obtain ⟨ms, k1, k2, k3⟩ := hp s.log (List.prefix_refl _)
        have hx := (hcnt.answered (fun m hm => (k1 m hm).1) k2).length_le
        rw [hJ] at hx
        have hone' : xs = [] := by
          have := hone
          rw [hci] at this
          simpa using this
        subst hone'
        rw [hdue] at ht
        simp only [Bool.toNat_false] at ht
        cases hpe : g.pend with
        | none => simp
        | some m =>
          rw [hpe, List.length_append] at hs
          simp only [Option.toList_some, List.length_singleton] at hs
          omega
  unfold LiveG at hl
  cases hpc : s.pc with
  | off =>
    rw [hpc] at hl
    refine fin ⟨s.dap.ctlIn, ?_, hone⟩ hl.2.2.answered
    rw [hb1, hl.2.2.sent]
  | failed r => rw [hpc] at hl; exact hl.elim
  | top => rw [hpc] at hl; exact ofCount hl.2.2.2 hl.2.2.1
  | queue => rw [hpc] at hl; exact ofCount hl.2.2 hl.2.1
  | io p => rw [hpc] at hl; exact ofCount hl.2.2 hl.2.1
  | msg p => rw [hpc] at hl; exact ofCount hl.2.2 hl.2.1

section Examples
open Sample Dbg.Sample

/-- The answers of the session, after an event between them. -/
example : ∃ s, Reach debugger client 0 noFiles 0 s ∧
    (∀ ms : List DapMsg, (∀ m ∈ ms, m.Ok) → received (sinceStart s.log) <+: wireOfMsgs ms →
      returned (sinceStart s.log) <+: answers stdCodec ms) ∧
    returned (sinceStart s.log) = [printJson (response "initialize"), printJson (response "threads")] := by
  obtain ⟨s, h, hl⟩ := session_reach
  exact ⟨s, h, (C90_in_order debugger_local rfl stdCodec_lawful (by decide +kernel) client_civil h
    (hl ▸ session_canon) (hl ▸ session_polite)).2.1, by rw [hl]; decide +kernel⟩

end Examples

end Xeus.Link
