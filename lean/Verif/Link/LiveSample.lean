import Verif.Link.LiveSpec
import Verif.Link.Sample
import Verif.Dap.FramingProps

/-!
# The debugger and the client together: a polite adapter and a civil client, for the examples
-/

namespace Xeus.Link.Sample

open Xeus Xeus.Spec K Link Link.Spec

theorem client_civil : CivilClient client where
  plain := rfl
  handler _ _ h1 h2 _ := .forward h1 h2 (fun st => ⟨st + 1, rfl⟩) .ret
  user := by show Utf8 (lit "user"); exact utf8_lit (by decide)
  session := by show Utf8 (lit "session"); exact utf8_lit (by decide)
  now _ := by show Utf8 (lit "2024-01-01T00:00:00.5Z"); exact utf8_lit (by decide)

/-- Messages with the field `Content-Length` only, all of which are sound. -/
def properTexts (bs : List Str) : Bool :=
  bs.all fun raw => decide (raw.length < 18446744073709551616) &&
    match stdCodec.parse raw with
    | some (.obj kvs) => !memberIs (.obj kvs) "type" "event" ||
      (match (Json.obj kvs).find? (lit "event") with | some (.str _) => true | _ => false)
    | _ => false

/-- A check of what an adapter sends in a session with a single launch. -/
def politeCheck (bs : List Str) (log : List LinkEv) : Bool :=
  properTexts bs && (List.range (log.length + 1)).all fun k => (List.range (bs.length + 1)).any fun n =>
    decide (received (sinceStart (log.take k)) <+: wireOfMsgs ((bs.take n).map plainMsg)) &&
    decide ((answers stdCodec ((bs.take n).map plainMsg)).length ≤ (passed (sinceStart (log.take k))).length)

theorem polite_of {bs : List Str} {log : List LinkEv} (h : politeCheck bs log = true) : PoliteAdapter stdCodec log := by
  simp only [politeCheck, Bool.and_eq_true, List.all_eq_true, List.any_eq_true, decide_eq_true_eq] at h
  obtain ⟨h1, h2⟩ := h
  intro pre hpre
  obtain ⟨n, _, h3, h4⟩ := h2 pre.length (List.mem_range.2 (Nat.lt_succ_of_le hpre.length_le))
  rw [← List.prefix_iff_eq_take.1 hpre] at h3 h4
  refine ⟨_, fun m hm => ?_, h3, h4⟩
  obtain ⟨raw, hraw, rfl⟩ := List.mem_map.1 hm
  simp only [properTexts, List.all_eq_true, Bool.and_eq_true, decide_eq_true_eq] at h1
  obtain ⟨h5, h6⟩ := h1 raw (List.mem_of_mem_take hraw)
  refine ⟨plainMsg_ok h5, ?_⟩
  show Proper stdCodec raw
  split at h6
  · rename_i kvs hp
    refine ⟨kvs, hp, fun he => ?_⟩
    rw [he] at h6
    simp only [Bool.not_true, Bool.false_or] at h6
    split at h6
    · rename_i name hn; exact ⟨name, hn⟩
    · cases h6
  · cases h6

theorem canon_of {log : List LinkEv} (h : log.all (fun | .call header _ => header.canon | _ => true) = true) : CanonHeaders log := by
  intro header m hm
  exact List.all_eq_true.1 h _ hm

/-- The texts of the adapter in the session. -/
def sessionTexts : List Str := [printJson (response "initialize"), printJson stoppedEvent, printJson (response "threads")]

theorem session_ok : ∀ m ∈ sessionTexts.map plainMsg, m.Ok := by
  have h : sessionTexts.all (fun raw => decide (raw.length < 18446744073709551616)) = true := by decide +kernel
  intro m hm
  obtain ⟨raw, hraw, rfl⟩ := List.mem_map.1 hm
  exact plainMsg_ok (of_decide_eq_true (List.all_eq_true.1 h raw hraw))

theorem session_polite : PoliteAdapter stdCodec sessionLog := polite_of (bs := sessionTexts) (by decide +kernel)
theorem session_canon : CanonHeaders sessionLog := canon_of (by decide +kernel)

/-- A run, decision by decision. -/
def walk (s : Link Nat Nat) : List Choice → Option (Link Nat Nat)
  | [] => some s
  | c :: cs =>
    match go Dbg.Sample.debugger client s c with
    | some s' => walk s' cs
    | none => none

theorem walk_reach {s s' : Link Nat Nat} {cs : List Choice} (h : Reach Dbg.Sample.debugger client 0 Dbg.Sample.noFiles 0 s)
    (hw : walk s cs = some s') : Reach Dbg.Sample.debugger client 0 Dbg.Sample.noFiles 0 s' := by
  induction cs generalizing s with
  | nil => cases hw; exact h
  | cons c cs ih =>
    simp only [walk] at hw
    split at hw
    · rename_i hg; exact ih (.step h (go_sound _ _ hg)) hw
    · cases hw

/-- Whether a program waits. -/
def waits {S α : Type} : K S α → S → Bool
  | .done _, _ => false
  | .act f _, s => match (f s).1 with | .hang => true | _ => false

theorem waits_sound {S α : Type} {p : K S α} {s : S} (h : waits p s = true) : (∀ r, p ≠ .done r) ∧ ¬ Ready p s := by
  cases p with
  | done r => cases h
  | act f k =>
    refine ⟨fun r hr => (by cases hr), fun hr => hr ?_⟩
    simp only [waits] at h
    split at h
    · assumption
    · cases h

/-- Everything has been dealt with. -/
theorem rests {τ σ : Type} {d : Dbg.Debugger τ} {cl : Client σ} {s : Link τ σ} (h1 : s.ctl = none) (h2 : s.pc = .top)
    (h3 : s.dap.requestStop = false) (h4 : s.dap.hdrIn = []) (h5 : s.dap.ctlIn = []) (h6 : s.dap.tcpIn = []) (t : Link τ σ) :
    ¬ Internal d cl s t := by
  rintro ⟨hs, hx⟩
  cases hs with
  | call header m _ => rcases hx with hx | ⟨hx, _⟩ <;> exact hx (by first | rfl | exact h1)
  | arrive b _ => rcases hx with hx | ⟨hx, _⟩ <;> exact hx (by first | rfl | exact h1)
  | user a b c e => rcases hx with hx | ⟨hx, _⟩ <;> exact hx (by first | rfl | exact h1)
  | ret hp _ _ => rw [h1] at hp; cases hp
  | dbg hp _ _ _ => rw [h1] at hp; cases hp
  | start _ hp _ _ _ _ _ => rw [h1] at hp; cases hp
  | io hp _ _ => rw [h2] at hp; cases hp
  | msg hp _ _ => rw [h2] at hp; cases hp
  | @poll hdr ctl tcp hp _ hok =>
    obtain ⟨k1, k2, k3, k4⟩ := hok
    cases hdr with
    | true => exact k2 rfl h4
    | false =>
      cases ctl with
      | true => exact (k3 rfl).1 h5
      | false =>
        cases tcp with
        | true => exact k4 rfl h6
        | false => cases k1
  | polled hp => rw [h2] at hp; cases hp
  | next hp _ => rw [h2] at hp; cases hp
  | handled hp => rw [h2] at hp; cases hp
  | emptied hp _ => rw [h2] at hp; cases hp
  | fail hp _ => rcases hp with hp | hp <;> rw [h2] at hp <;> cases hp
  | leave _ hr => rw [h3] at hr; cases hr

/-- The adapter answers a single request twice, in one piece. -/
def rude : List Choice :=
  [.call firstHeader (Dbg.Sample.request "initialize" .null),
   .arrive (dapFrame (printJson (response "initialize")) ++ dapFrame (printJson (response "initialize")))]

/-- The adapter stops in the middle of its answer. -/
def half : List Choice :=
  [.call firstHeader (Dbg.Sample.request "initialize" .null),
   .arrive ((dapFrame (printJson (response "initialize"))).take 30)]

/-- A piece without content comes before the debugger has sent the header; the client looks at its sockets at this moment. -/
def early : List Choice :=
  [.call firstHeader (Dbg.Sample.request "initialize" .null), .dbg, .start (lit "ACK"), .arrive [], .poll false false true, .dbg, .dbg]

theorem go_dbg_pc {τ σ : Type} {d : Dbg.Debugger τ} {cl : Client σ} {s s' : Link τ σ} (h : go d cl s .dbg = some s') : s'.pc = s.pc := by
  simp only [go] at h
  split at h
  · split at h
    · split at h
      · cases h
      · cases h; rfl
    · cases h
  · cases h

theorem go_poll_pc {τ σ : Type} {d : Dbg.Debugger τ} {cl : Client σ} {s s' : Link τ σ} {a b c : Bool}
    (h : go d cl s (.poll a b c) = some s') : s'.pc = .io (afterPoll cl a b c) := by
  simp only [go] at h
  split at h
  · split at h
    · cases h; rfl
    · cases h
  · cases h

theorem walk_append {s s' : Link Nat Nat} {cs ds : List Choice} (h : walk s (cs ++ ds) = some s') :
    ∃ t, walk s cs = some t ∧ walk t ds = some s' := by
  induction cs generalizing s with
  | nil => exact ⟨s, rfl, h⟩
  | cons c cs ih =>
    simp only [List.cons_append, walk] at h ⊢
    split at h
    · exact ih h
    · cases h

theorem walk_cons {s s' : Link Nat Nat} {c : Choice} {cs : List Choice} (h : walk s (c :: cs) = some s') :
    ∃ t, go Dbg.Sample.debugger client s c = some t ∧ walk t cs = some s' := by
  simp only [walk] at h
  split at h
  · rename_i t hg; exact ⟨t, hg, h⟩
  · cases h

theorem early_pc {s : Link Nat Nat} (h : walk begin_ early = some s) : s.pc = .io (afterPoll client false false true) := by
  obtain ⟨t, _, h⟩ := walk_append (cs := early.take 4) (ds := [.poll false false true, .dbg, .dbg]) h
  obtain ⟨t1, h1, h⟩ := walk_cons h
  obtain ⟨t2, h2, h⟩ := walk_cons h
  obtain ⟨t3, h3, h⟩ := walk_cons h
  cases h
  rw [go_dbg_pc h3, go_dbg_pc h2, go_poll_pc h1]

end Xeus.Link.Sample
