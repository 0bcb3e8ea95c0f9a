import Verif.Link.Spec
import Verif.Dap.Sample
import Verif.Debugger.Sample

/-!
# The debugger and the client together: a concrete run, for the examples
-/

namespace Xeus.Link.Sample

open Xeus Xeus.Spec K Link

/-- A scheduler's decision. -/
inductive Choice where
  | call (header m : Json)
  | ret
  | dbg
  | start (q : Str)
  | io
  | msg
  | poll (hdr ctl tcp : Bool)
  | polled
  | next
  | handled
  | emptied
  | leave
  | arrive (bytes : Str)

section
variable {τ σ : Type} (d : Dbg.Debugger τ) (cl : Client σ)

instance (s s' : Dbg.State τ) : Decidable (Starts s s') := by unfold Starts; exact inferInstance

/-- The step of a program, if it does not block. -/
def stepK {S α : Type} (p : K S α) (s : S) : Option (K S α × S) :=
  match p with
  | .done _ => none
  | .act f k =>
    match f s with
    | (.ok b, s') => some (k (.ok b), s')
    | (.exc e, s') => some (k (.error e), s')
    | (.ub w, s') => some (.done (.ub w), s')
    | (.hang, _) => none

theorem stepK_sound {S α : Type} {p : K S α} {s : S} {x : K S α × S} (h : stepK p s = some x) : Ready p s ∧ p.step s = some x := by
  cases p with
  | done r => cases h
  | act f k =>
    simp only [stepK] at h
    simp only [Ready, K.step]
    rcases hf : f s with ⟨r, s'⟩
    rw [hf] at h
    cases r <;> first | (cases h; exact ⟨by simp, rfl⟩) | cases h

/-- What the scheduler's decision leads to. -/
def go (s : Link τ σ) : Choice → Option (Link τ σ)
  | .call header m =>
    match s.ctl with
    | none => some { s with ctl := some (Dbg.processRequest d header m), log := s.log ++ [.call header m] }
    | some _ => none
  | .ret =>
    match s.ctl with
    | some (.done (.ok j)) => some { s with ctl := none, log := s.log ++ [.ret (.ok j)] }
    | some (.done (.exc e)) => some { s with ctl := none, log := s.log ++ [.ret (.exc e)] }
    | _ => none
  | .dbg =>
    match s.ctl with
    | some p =>
      match stepK p s.dbg with
      | some (p', t) =>
        if Starts s.dbg t then none
        else some { s with dbg := t, ctl := some p', dap := toDap s.dbg t s.dap, log := s.log ++ dbgEntries s.dbg t }
      | none => none
    | none => none
  | .start q =>
    match s.ctl, s.pc with
    | some p, .off =>
      match stepK p s.dbg with
      | some (p', t) =>
        if Starts s.dbg t then
          match (startDebugger cl).run { s.dap with ctlIn := s.dap.ctlIn ++ [q] } with
          | (.ok (), c) => some { s with dbg := t, ctl := some p', dap := c, pc := .top, log := s.log ++ dbgEntries s.dbg t }
          | _ => none
        else none
      | none => none
    | _, _ => none
  | .io =>
    match s.pc with
    | .io p =>
      match stepK p s.dap with
      | some (p', c) => some { s with dap := c, pc := .io p', dbg := toDbg s.dap c s.dbg, log := s.log ++ dapEntries s.dap c }
      | none => none
    | _ => none
  | .msg =>
    match s.pc with
    | .msg p =>
      match stepK p s.dap with
      | some (p', c) => some { s with dap := c, pc := .msg p', dbg := toDbg s.dap c s.dbg, log := s.log ++ dapEntries s.dap c }
      | none => none
    | _ => none
  | .poll hdr ctl tcp =>
    match s.pc with
    | .top =>
      if s.dap.requestStop = false ∧ (hdr || ctl || tcp) = true ∧ (hdr = true → s.dap.hdrIn ≠ []) ∧
          (ctl = true → s.dap.ctlIn ≠ [] ∧ s.dap.replyDue = false) ∧ (tcp = true → s.dap.tcpIn ≠ []) then
        some { s with pc := .io (afterPoll cl hdr ctl tcp) }
      else none
    | _ => none
  | .polled =>
    match s.pc with
    | .io (.done (.ok ())) => some { s with pc := .queue }
    | _ => none
  | .next =>
    match s.pc, s.dap.queue with
    | .queue, raw :: _ => some { s with pc := .msg (processOne cl raw) }
    | _, _ => none
  | .handled =>
    match s.pc with
    | .msg (.done (.ok ())) => some { s with pc := .queue }
    | _ => none
  | .emptied =>
    match s.pc, s.dap.queue with
    | .queue, [] => some { s with pc := .top }
    | _, _ => none
  | .leave =>
    match s.pc with
    | .top =>
      if s.dap.requestStop = true then some { s with pc := .off, dap := { s.dap with requestStop := false, tcpIn := [] } } else none
    | _ => none
  | .arrive bytes =>
    match s.pc with
    | .off => none
    | _ => some { s with dap := { s.dap with tcpIn := s.dap.tcpIn ++ [bytes] }, log := s.log ++ [.sent bytes] }

theorem go_sound {s s' : Link τ σ} {c : Choice} (h : go d cl s c = some s') : Step d cl s s' := by
  cases c with
  | call header m =>
    simp only [go] at h
    split at h
    · rename_i hc; cases h; exact .call header m hc
    · cases h
  | ret =>
    simp only [go] at h
    split at h
    · rename_i hc; cases h; exact .ret hc rfl (by simp)
    · rename_i hc; cases h; exact .ret hc rfl (by simp)
    · cases h
  | dbg =>
    simp only [go] at h
    split at h
    · rename_i hc
      split at h
      · rename_i hs
        obtain ⟨h1, h2⟩ := stepK_sound hs
        split at h
        · cases h
        · rename_i hn; cases h; exact .dbg hc h1 h2 hn
      · cases h
    · cases h
  | start q =>
    simp only [go] at h
    split at h
    · rename_i hc hp
      split at h
      · rename_i hs
        obtain ⟨h1, h2⟩ := stepK_sound hs
        split at h
        · rename_i hn
          split at h
          · rename_i hr; cases h; exact .start q hc h1 h2 hn hp hr
          · cases h
        · cases h
      · cases h
    · cases h
  | io =>
    simp only [go] at h
    split at h
    · rename_i hc
      split at h
      · rename_i hs
        obtain ⟨h1, h2⟩ := stepK_sound hs
        cases h; exact .io hc h1 h2
      · cases h
    · cases h
  | msg =>
    simp only [go] at h
    split at h
    · rename_i hc
      split at h
      · rename_i hs
        obtain ⟨h1, h2⟩ := stepK_sound hs
        cases h; exact .msg hc h1 h2
      · cases h
    · cases h
  | poll a b c =>
    simp only [go] at h
    split at h
    · rename_i hc
      split at h
      · rename_i hp; cases h; exact .poll hc hp.1 hp.2
      · cases h
    · cases h
  | polled =>
    simp only [go] at h
    split at h
    · rename_i hc; cases h; exact .polled hc
    · cases h
  | next =>
    simp only [go] at h
    split at h
    · rename_i hc hq; cases h; exact .next hc hq
    · cases h
  | handled =>
    simp only [go] at h
    split at h
    · rename_i hc; cases h; exact .handled hc
    · cases h
  | emptied =>
    simp only [go] at h
    split at h
    · rename_i hc hq; cases h; exact .emptied hc hq
    · cases h
  | leave =>
    simp only [go] at h
    split at h
    · rename_i hc
      split at h
      · rename_i hr; cases h; exact .leave hc hr
      · cases h
    · cases h
  | arrive bytes =>
    simp only [go] at h
    split at h
    · cases h
    · rename_i hc; cases h; exact .arrive bytes hc

/-- The first decision possible: the debugger first, then the client. -/
def auto (s : Link τ σ) : Option (Link τ σ) :=
  [.ret, .dbg, .start (lit "ACK"), .io, .msg, .polled, .next, .handled, .emptied, .leave,
    .poll (!s.dap.hdrIn.isEmpty) (!s.dap.ctlIn.isEmpty && !s.dap.replyDue) (!s.dap.tcpIn.isEmpty)].findSome? (go d cl s)

/-- So on, at most `n` times. -/
def drive : Nat → Link τ σ → Link τ σ
  | 0, s => s
  | n + 1, s =>
    match auto d cl s with
    | some s' => drive n s'
    | none => s

/-- A run: requests and arrivals, after each of which everything possible happens. -/
def play (s : Link τ σ) : List Choice → Option (Link τ σ)
  | [] => some s
  | c :: cs =>
    match go d cl s c with
    | some s' => play (drive d cl 200 s') cs
    | none => none

theorem auto_sound {s s' : Link τ σ} (h : auto d cl s = some s') : Step d cl s s' := by
  obtain ⟨c, _, hc⟩ := List.exists_of_findSome?_eq_some h
  exact go_sound d cl hc

theorem drive_reach {u : τ} {files : Str → Option Str} {v : σ} {s : Link τ σ} (n : Nat) (h : Reach d cl u files v s) :
    Reach d cl u files v (drive d cl n s) := by
  induction n generalizing s with
  | zero => exact h
  | succ n ih =>
    simp only [drive]
    split
    · rename_i hs; exact ih (.step h (auto_sound d cl hs))
    · exact h

theorem play_reach {u : τ} {files : Str → Option Str} {v : σ} {s s' : Link τ σ} {cs : List Choice} (h : Reach d cl u files v s)
    (hp : play d cl s cs = some s') : Reach d cl u files v s' := by
  induction cs generalizing s with
  | nil => cases hp; exact h
  | cons c cs ih =>
    simp only [play] at hp
    split at hp
    · rename_i hg; exact ih (drive_reach d cl _ (.step h (go_sound d cl hg))) hp
    · cases hp

end

/-! ## A session -/

/-- A client that starts at once; it forwards every event. -/
def client : Client Nat := { sampleClient with parallel := false }

def firstHeader : Json := .obj [(lit "msg_id", .str (lit "m1"))]
def secondHeader : Json := .obj [(lit "msg_id", .str (lit "m2"))]

/-- Messages of the adapter. -/
def stoppedEvent : Json :=
  .obj [(lit "body", .obj [(lit "threadId", .int 3)]), (lit "event", .str (lit "stopped")), (lit "type", .str (lit "event"))]
def response (command : String) : Json :=
  .obj [(lit "command", .str (lit command)), (lit "seq", .int 7), (lit "success", .bool true), (lit "type", .str (lit "response"))]

/-- Two requests; the adapter sends an event together with each answer. -/
def session : List Choice :=
  [.call firstHeader (Dbg.Sample.request "initialize" .null),
   .arrive (dapFrame (printJson (response "initialize"))),
   .call secondHeader (Dbg.Sample.request "threads" .null),
   .arrive (dapFrame (printJson stoppedEvent) ++ dapFrame (printJson (response "threads")))]

def begin_ : Link Nat Nat := Link.initial 0 Dbg.Sample.noFiles 0

/-- What remains of a run for the examples: the record. -/
def logOf (cs : List Choice) : Option (List LinkEv) := (play Dbg.Sample.debugger client begin_ cs).map Link.log

theorem logOf_reach {cs : List Choice} {l : List LinkEv} (h : logOf cs = some l) :
    ∃ s, Reach Dbg.Sample.debugger client 0 Dbg.Sample.noFiles 0 s ∧ s.log = l := by
  obtain ⟨s, h1, h2⟩ := Option.map_eq_some_iff.1 h
  exact ⟨s, play_reach _ _ .init h1, h2⟩

/-- The record of the session. -/
def sessionLog : List LinkEv := (logOf session).getD []

theorem session_log : logOf session = some sessionLog := by
  have h : (logOf session).isSome = true := by decide +kernel
  obtain ⟨l, hl⟩ := Option.isSome_iff_exists.1 h
  rw [sessionLog, hl]; rfl

theorem session_reach : ∃ s, Reach Dbg.Sample.debugger client 0 Dbg.Sample.noFiles 0 s ∧ s.log = sessionLog := logOf_reach session_log

theorem noCall_of {l : List LinkEv} (h : l.all (fun | .call _ _ => false | _ => true) = true) : Link.Spec.NoCall l := by
  intro a b hx
  have := List.all_eq_true.1 h _ hx
  cases this

end Xeus.Link.Sample
