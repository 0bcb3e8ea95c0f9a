import Verif.Link.Launch
import Verif.Link.LiveProps

/-!
# The debugger and the debug adapter client together: properties C91 and C92

When the client ends, and whether the debugger gets what it waits for.
-/

namespace Xeus.Link

open Xeus Xeus.Spec K Link.Spec

variable {τ σ : Type} {d : Dbg.Debugger τ} {cl : Client σ} {u : τ} {files : Str → Option Str} {v : σ} {s t : Link τ σ}

/-! ## C91 -/

/-- **C91**.  If the client has been launched and has ended since, then it has passed on an answer to a `disconnect` request. -/
theorem C91_ended (hK : LawfulCodec cl.env.J) (h : Reach d cl u files v s) (hl : LinkEv.dbg (.start true) ∈ s.log) (hoff : s.pc = .off) :
    ∃ r ∈ replied (sinceStart s.log), isDisconnectText cl.env.J r = true := by
  have := ending_reach hK h
  unfold Ending at this
  rw [hoff] at this
  exact List.any_eq_true.1 (this hl)

/-- **C91**.  At the end of each turn of its loop, the client ends if it has passed on such an answer since it was launched, and
turns to its sockets again otherwise. -/
theorem C91_turn (hK : LawfulCodec cl.env.J) (h : Reach d cl u files v s) (htop : s.pc = .top) (hs : Step d cl s t) (hpc : t.pc ≠ .top) :
    (t.pc = .off ↔ ∃ r ∈ replied (sinceStart s.log), isDisconnectText cl.env.J r = true) ∧
    (t.pc ≠ .off → ∃ a b c, t.pc = .io (afterPoll cl a b c)) := by
  have hend := ending_reach hK h
  unfold Ending at hend
  rw [htop] at hend
  have hany : (∃ r ∈ replied (sinceStart s.log), isDisconnectText cl.env.J r = true) ↔ s.dap.requestStop = true := by
    rw [hend]; exact List.any_eq_true.symm
  rw [hany]
  cases hs with
  | call _ _ _ => exact absurd htop hpc
  | ret _ _ _ => exact absurd htop hpc
  | dbg _ _ _ _ => exact absurd htop hpc
  | start _ _ _ _ _ hoff _ => rw [htop] at hoff; cases hoff
  | io hp _ _ => rw [htop] at hp; cases hp
  | msg hp _ _ => rw [htop] at hp; cases hp
  | poll _ hr _ => exact ⟨by rw [hr]; simp, fun _ => ⟨_, _, _, rfl⟩⟩
  | polled hp => rw [htop] at hp; cases hp
  | next hp _ => rw [htop] at hp; cases hp
  | handled hp => rw [htop] at hp; cases hp
  | emptied hp _ => rw [htop] at hp; cases hp
  | fail hp _ => rcases hp with hp | hp <;> rw [htop] at hp <;> cases hp
  | leave _ hr => exact ⟨by rw [hr]; simp, fun hx => absurd rfl hx⟩
  | arrive _ _ => exact absurd htop hpc
  | user _ _ _ _ => exact absurd htop hpc

section Examples
open Sample Dbg.Sample

/-- A session that ends. -/
def ended : List Choice :=
  [.call firstHeader (request "initialize" .null), .arrive (dapFrame (printJson (response "initialize"))),
   .call secondHeader (request "disconnect" .null), .arrive (dapFrame (printJson (response "disconnect")))]

/-- After the answer to `disconnect` the client has ended. -/
example : ∃ s r, Reach debugger client 0 noFiles 0 s ∧ s.pc = .off ∧ LinkEv.dbg (.start true) ∈ s.log ∧
    r ∈ replied (sinceStart s.log) ∧ isDisconnectText stdCodec r = true := by
  have h : (play debugger client begin_ ended).any (fun s => (match s.pc with | .off => true | _ => false) &&
      decide (LinkEv.dbg (.start true) ∈ s.log)) = true := by decide +kernel
  rcases hp : play debugger client begin_ ended with _ | s
  · rw [hp] at h; cases h
  · rw [hp] at h
    simp only [Option.any_some, Bool.and_eq_true, decide_eq_true_eq] at h
    obtain ⟨h1, h2⟩ := h
    have hoff : s.pc = .off := by
      split at h1
      · rename_i hx; exact hx
      · cases h1
    have hr : Reach debugger client 0 noFiles 0 s := play_reach _ _ .init hp
    obtain ⟨r, h3, h4⟩ := C91_ended stdCodec_lawful hr h2 hoff
    exact ⟨s, r, hr, hoff, h2, h3, h4⟩

/-- In a session without `disconnect`, the client turns to its sockets again when something arrives. -/
example : ∃ s t a b c, Reach debugger client 0 noFiles 0 s ∧ Step debugger client s t ∧ s.pc = .top ∧
    (replied (sinceStart s.log)).length = 2 ∧ t.pc = .io (afterPoll client a b c) := by
  have h : (play debugger client begin_ Sample.session).any (fun s => (match s.pc with | .top => true | _ => false) &&
      (!s.dap.requestStop && (decide (replied (sinceStart s.log) = [printJson (response "initialize"), printJson (response "threads")])))) = true := by
    decide +kernel
  rcases hp : play debugger client begin_ Sample.session with _ | s
  · rw [hp] at h; cases h
  · rw [hp] at h
    simp only [Option.any_some, Bool.and_eq_true, decide_eq_true_eq, Bool.not_eq_true'] at h
    obtain ⟨h1, h2, h3⟩ := h
    have htop : s.pc = .top := by
      split at h1
      · rename_i hx; exact hx
      · cases h1
    have hr : Reach debugger client 0 noFiles 0 s := play_reach _ _ .init hp
    have ha : Reach debugger client 0 noFiles 0 { s with dap := { s.dap with tcpIn := s.dap.tcpIn ++ [[]] }, log := s.log ++ [.sent []] } :=
      .step hr (.arrive [] (by rw [htop]; simp))
    have hlog : replied (sinceStart (s.log ++ [.sent []])) = replied (sinceStart s.log) := by
      rw [sinceStart_append (by simp), replied_append]
      exact List.append_nil _
    have hs : Step debugger client { s with dap := { s.dap with tcpIn := s.dap.tcpIn ++ [[]] }, log := s.log ++ [.sent []] } _ :=
      .poll (hdr := false) (ctl := false) (tcp := true) htop h2
        ⟨rfl, fun h => (by cases h), fun h => (by cases h), fun _ => by simp⟩
    obtain ⟨h4, h5⟩ := C91_turn stdCodec_lawful ha htop hs (by simp)
    obtain ⟨a, b, c, h6⟩ := h5 (by simp)
    exact ⟨_, _, a, b, c, ha, hs, htop, by rw [hlog, h3]; rfl, h6⟩

end Examples

/-! ## C92 -/

theorem happens_even (rounds : List Round) : (replied (happens rounds)).length = (requested (happens rounds)).length := by
  induction rounds with
  | nil => rfl
  | cons r rounds ih =>
    have e : happens (r :: rounds) = r.events ++ happens rounds := rfl
    rw [e, replied_append, requested_append, List.length_append, List.length_append, ih]
    cases r <;> rfl

/-- **C92**.  Every request of the frontend is answered: when the two threads rest and the adapter has answered everything that it has
been sent, the control thread is free and every exchange is complete — unless undefined behaviour has occurred in the debugger, or
the client has ended after an answer to `disconnect`. -/
theorem C92_answered (hd : Dbg.Spec.Local d) (hret : Returns d) (hJ : cl.env.J = d.J) (hK : LawfulCodec d.J) (hE : d.J.parse [] = none)
    (hcl : CivilClient cl) (h : Reach d cl u files v s) (hc : CanonHeaders s.log) (hp : PoliteAdapter d.J s.log)
    (hrest : ∀ t, ¬ Internal d cl s t) (hall : AllAnswered d.J (sinceStart s.log)) (hdeaf : s.dap.tcpIn.flatten = [] → s.dap.tcpIn = [])
    (hsa : ¬ StartsAgain s) :
    (s.ctl = none ∧ Complete s.log) ∨ (∃ w, s.ctl = some (.done (.ub w))) ∨
    (s.ctl ≠ none ∧ s.pc = .off ∧ ∃ r ∈ replied (sinceStart s.log), isDisconnectText d.J r = true) := by
  rcases waiting_at_rest hret (inv_reach hd h) (prompt_reach hret h) hrest hsa with h1 | h1 | ⟨rounds, ph, part, h1, h2, h3, h4, h5, h6, h7⟩
  · exact .inl h1
  · exact .inr (.inl h1)
  · right; right
    by_cases hoff : s.pc = .off
    · have := C91_ended (hJ ▸ hK) h (launched_reach hd h (.inr h6)) hoff
      rw [hJ] at this
      exact ⟨h7, hoff, this⟩
    · exfalso
      obtain ⟨ms, k1, k2, k3⟩ := hall
      rcases C89_at_rest hd hJ hK hE hcl h hc hp hrest hoff with ⟨h8, h9 | h9⟩ | ⟨_, h8, h9, _, _, h10, h11⟩
      · exact h8 (hdeaf h9)
      · exact h9 ms k1 k2
      · cases h2 with
        | idle => exact h3 rfl
        | hdrSent hx => rw [h8] at hx; cases hx
        | hdrTaken _ _ _ hx => rw [h4] at hx; cases hx
        | reqSent _ hx => rw [h9] at hx; cases hx
        | reqAnswered _ _ _ _ hx => rw [h5] at hx; cases hx
        | @reqTaken m =>
          have hrep := h11 ms k1 k2
          obtain ⟨hb, _, _⟩ := inv_between (inv_reach hd h)
          rw [h9, List.append_nil] at hb
          have hlen : (replied (sinceStart s.log)).length = (requested (sinceStart s.log)).length := by
            rw [hrep, k3, h10, hb]
          rw [← replied_exchanged, ← requested_exchanged, ← sinceStart_exchanged, h1, sinceStart_append (by simp)] at hlen
          obtain ⟨rounds', hr'⟩ := sinceStart_happens rounds
          rw [hr', replied_append, requested_append, List.length_append, List.length_append, happens_even] at hlen
          simp [replied, requested] at hlen

/-- **C92**, the other side: what the debugger sends to a client that has ended is lost.  Its request is never answered, whatever
happens afterwards. -/
theorem C92_lost (hd : Dbg.Spec.Local d) (h : Reach d cl u files v s) (hoff : s.pc = .off) (hw : s.dap.hdrIn ≠ [] ∨ s.dap.ctlIn ≠ [])
    (ha : After d cl s t) : t.ctl = s.ctl ∧ t.ctl ≠ none ∧ t.log = s.log := by
  obtain ⟨p₀, hp₀, _⟩ := held (inv_reach hd h) hw
  suffices hall : t.ctl = s.ctl ∧ t.log = s.log ∧ t.pc = .off ∧ t.dap.hdrIn = s.dap.hdrIn ∧ t.dap.ctlIn = s.dap.ctlIn ∧ Inv d cl t from
    ⟨hall.1, by rw [hall.1, hp₀]; simp, hall.2.1⟩
  induction ha with
  | now => exact ⟨rfl, rfl, hoff, rfl, rfl, inv_reach hd h⟩
  | @step t t' ha hs ih =>
    obtain ⟨h1, h2, h3, h4, h5, h6⟩ := ih
    obtain ⟨p, hp, hnd, hnr⟩ := held h6 (by rw [h4, h5]; exact hw)
    have hinv := inv_step hd h6 hs
    cases hs with
    | call header m hf => rw [hp] at hf; cases hf
    | ret hf => rw [hp] at hf; cases hf; exact absurd rfl (hnd _)
    | dbg hf hrd _ _ => rw [hp] at hf; cases hf; exact absurd hrd hnr
    | start _ hf hrd _ _ _ _ => rw [hp] at hf; cases hf; exact absurd hrd hnr
    | io hf _ _ => rw [h3] at hf; cases hf
    | msg hf _ _ => rw [h3] at hf; cases hf
    | poll hf _ _ => rw [h3] at hf; cases hf
    | polled hf => rw [h3] at hf; cases hf
    | next hf _ => rw [h3] at hf; cases hf
    | handled hf => rw [h3] at hf; cases hf
    | emptied hf _ => rw [h3] at hf; cases hf
    | fail hf _ => rcases hf with hf | hf <;> rw [h3] at hf <;> cases hf
    | leave hf _ => rw [h3] at hf; cases hf
    | arrive b hf => exact absurd h3 hf
    | user _ _ _ _ => exact ⟨h1, h2, h3, h4, h5, hinv⟩

section Examples
open Sample Dbg.Sample

theorem debugger_returns : Returns debugger where
  start _ := by simp [debugger]
  stop _ := by simp [debugger]
  info _ := by simp [debugger]
  cellFile _ _ := by simp [debugger]
  requests name b f hm m := by
    simp only [debugger, List.mem_singleton, Prod.mk.injEq] at hm
    obtain ⟨_, _, hf⟩ := hm
    cases hf
    exact .call fun _ => .ret

/-- Both requests of the session are answered in the end. -/
example : ∃ s, Reach debugger client 0 noFiles 0 s ∧ (∀ t, ¬ Internal debugger client s t) ∧ AllAnswered stdCodec (sinceStart s.log) ∧
    (forwarded (sinceStart s.log)).length = 2 ∧ ¬ StartsAgain s ∧ s.ctl = none ∧ Complete s.log := by
  have h : (play debugger client begin_ Sample.session).any (fun s => s.log.all (fun | .call header _ => header.canon | _ => true) &&
      (politeCheck sessionTexts s.log && ((match s.pc with | .top => true | _ => false) && (s.ctl.isNone &&
      (!s.dap.requestStop && (s.dap.hdrIn.isEmpty && (s.dap.ctlIn.isEmpty && (s.dap.tcpIn.isEmpty &&
      (decide ((forwarded (sinceStart s.log)).length = 2) &&
        (decide (received (sinceStart s.log) = wireOfMsgs (sessionTexts.map plainMsg)) &&
        decide ((answers stdCodec (sessionTexts.map plainMsg)).length = (passed (sinceStart s.log)).length))))))))))) = true := by
    decide +kernel
  rcases hp : play debugger client begin_ Sample.session with _ | s
  · rw [hp] at h; cases h
  · rw [hp] at h
    simp only [Option.any_some, Bool.and_eq_true, List.isEmpty_iff, decide_eq_true_eq, Bool.not_eq_true', Option.isNone_iff_eq_none] at h
    obtain ⟨h1, h2, h3, h4, h5, h6, h7, h8, h9, h10, h11⟩ := h
    have hr : Reach debugger client 0 noFiles 0 s := play_reach _ _ .init hp
    have htop : s.pc = .top := by
      clear h10 h9 h2 h1
      split at h3
      · rename_i hx; exact hx
      · cases h3
    have hrest := rests (d := debugger) (cl := client) h4 htop h5 h6 h7 h8
    have hall : AllAnswered stdCodec (sinceStart s.log) := ⟨_, session_ok, h10, h11⟩
    have hsa : ¬ StartsAgain s := by
      rintro ⟨_, p, _, _, hx, _⟩
      rw [h4] at hx; cases hx
    rcases C92_answered debugger_local debugger_returns rfl stdCodec_lawful (by decide +kernel) client_civil hr (canon_of h1) (polite_of h2)
      hrest hall (fun _ => h8) hsa with ⟨hx, hy⟩ | ⟨w, hx⟩ | ⟨hx, _⟩
    · exact ⟨s, hr, hrest, hall, h9, hsa, hx, hy⟩
    · rw [h4] at hx; cases hx
    · exact absurd h4 hx

theorem stubborn_local : Dbg.Spec.Local stubborn := ⟨debugger_local.requests, debugger_local.events⟩

/-- The client has ended on the answer to `disconnect`, but `stop` has thrown, so that the debugger counts as started: the next request
is sent to a client that is gone. -/
def gone : List Choice := ended ++ [.call firstHeader (request "threads" .null)]

/-- **C92 needs its last exception**: with an adapter that is polite and answers everything, a request is never answered, because
`stop` threw and `m_is_started` stayed true when the client ended. -/
theorem C92_lost_witness : ∃ s, Reach stubborn client 0 noFiles 0 s ∧ CanonHeaders s.log ∧
    PoliteAdapter stdCodec s.log ∧ s.pc = .off ∧ s.ctl ≠ none ∧
    (∃ pre, s.log = pre ++ [.call firstHeader (request "threads" .null), .dbg (.header (printJson firstHeader))]) ∧
    ∀ t, After stubborn client s t → t.ctl = s.ctl ∧ t.log = s.log := by
  have h : (play stubborn client begin_ gone).any (fun s => s.log.all (fun | .call header _ => header.canon | _ => true) &&
      (politeCheck [printJson (response "initialize"), printJson (response "disconnect")] s.log &&
      ((match s.pc with | .off => true | _ => false) && (s.ctl.isSome && (!s.dap.hdrIn.isEmpty &&
      decide (s.log.drop (s.log.length - 2) =
        [.call firstHeader (request "threads" .null), .dbg (.header (printJson firstHeader))])))))) = true := by
    decide +kernel
  rcases hp : play stubborn client begin_ gone with _ | s
  · rw [hp] at h; cases h
  · rw [hp] at h
    simp only [Option.any_some, Bool.and_eq_true, decide_eq_true_eq] at h
    obtain ⟨h1, h2, h3, h4, h5, h6⟩ := h
    have hoff : s.pc = .off := by
      clear h6 h2 h1
      split at h3
      · rename_i hx; exact hx
      · cases h3
    have hne : s.dap.hdrIn ≠ [] := by intro hx; rw [hx] at h5; cases h5
    have hr : Reach stubborn client 0 noFiles 0 s := play_reach _ _ .init hp
    refine ⟨s, hr, canon_of h1, polite_of h2, hoff, ?_, ⟨s.log.take (s.log.length - 2), ?_⟩, fun t ha => ?_⟩
    · intro hx; rw [hx] at h4; cases h4
    · rw [← h6, List.take_append_drop]
    · obtain ⟨k1, _, k3⟩ := C92_lost stubborn_local hr hoff (.inl hne) ha
      exact ⟨k1, k3⟩

end Examples

end Xeus.Link
