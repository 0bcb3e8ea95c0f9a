import Verif.Link.SafeInv
import Verif.Link.EndSpec

/-!
# The control thread waits for the client only: lemmas

No property statements here.
-/

namespace Xeus.Link

open Xeus Xeus.Spec K Link.Spec

variable {τ σ : Type} {d : Dbg.Debugger τ} {cl : Client σ} {α β : Type}

/-! ## Computations that end -/

theorem Res.bind_ends {x : Res α} {f : α → Res β} (hx : x ≠ .hang) (hf : ∀ a, f a ≠ .hang) : (x >>= f) ≠ .hang := by
  cases x with
  | ok a => exact hf a
  | exc e => exact fun h => by cases h
  | ub w => exact fun h => by cases h
  | hang => exact absurd rfl hx

theorem cidx_ends (j : Json) (k : Str) : j.cidx k ≠ .hang := by
  unfold Json.cidx
  repeat' split
  all_goals simp

theorem getStr_ends (j : Json) : j.getStr ≠ .hang := by
  unfold Json.getStr
  split <;> simp

theorem getInt_ends (j : Json) : j.getInt ≠ .hang := by
  unfold Json.getInt
  repeat' split
  all_goals simp

theorem write_ends (J : Codec) (eh : ErrH) (j : Json) : J.writeZmq eh j ≠ .hang := by
  unfold Codec.writeZmq
  split <;> simp

theorem parse_ends (J : Codec) (s : Str) : J.parseZmq s ≠ .hang := by
  unfold Codec.parseZmq
  split <;> simp

theorem sourcePath_ends (m : Json) : Dbg.sourcePath m ≠ .hang :=
  Res.bind_ends (cidx_ends _ _) fun _ => Res.bind_ends (cidx_ends _ _) fun _ => Res.bind_ends (cidx_ends _ _) fun _ => getStr_ends _

theorem sourcePathOrEmpty_ends (m : Json) : Dbg.sourcePathOrEmpty m ≠ .hang := by
  unfold Dbg.sourcePathOrEmpty
  split
  · simp
  · exact sourcePath_ends m

theorem cellCode_ends (m : Json) : Dbg.cellCode m ≠ .hang := by
  unfold Dbg.cellCode
  have : (do let a ← m.cidx (lit "arguments"); let c ← a.cidx (lit "code"); c.getStr : Res Str) ≠ .hang :=
    Res.bind_ends (cidx_ends _ _) fun _ => Res.bind_ends (cidx_ends _ _) fun _ => getStr_ends _
  split
  · simp
  · exact this

theorem atKey_ends {k : Str} {f : Json → Res (α × Json)} (hf : ∀ j, f j ≠ .hang) (j : Json) : Dbg.atKey k f j ≠ .hang := by
  unfold Dbg.atKey
  split
  · exact Res.bind_ends (hf _) fun _ => by simp
  · exact Res.bind_ends (hf _) fun _ => by simp
  · simp

theorem cutFrames_ends (l : List Json) : Dbg.cutFrames l ≠ .hang := by
  induction l with
  | nil => simp [Dbg.cutFrames]
  | cons x xs ih =>
    unfold Dbg.cutFrames
    refine Res.bind_ends (atKey_ends (fun _ => atKey_ends (fun _ => by simp) _) _) fun a => ?_
    split
    · split
      · simp
      · exact Res.bind_ends ih fun _ => by simp

theorem cutStack_ends (j : Json) : Dbg.cutStack j ≠ .hang := by
  unfold Dbg.cutStack
  split
  · exact Res.bind_ends (cutFrames_ends _) fun _ => by simp
  all_goals simp

theorem cutReply_ends (j : Json) : Dbg.cutReply j ≠ .hang :=
  Res.bind_ends (atKey_ends (fun _ => atKey_ends (fun _ => cutStack_ends _) _) _) fun _ => by simp

theorem elemAt_ends (j : Json) (i : Int) : Dbg.elemAt j i ≠ .hang := by
  unfold Dbg.elemAt
  repeat' split
  all_goals simp

theorem pageLoop_ends (old : Json) (i : Int) (n : Nat) : Dbg.pageLoop old i n ≠ .hang := by
  induction n generalizing i with
  | zero => simp [Dbg.pageLoop]
  | succ n ih => exact Res.bind_ends (elemAt_ends _ _) fun _ => Res.bind_ends (ih _) fun _ => by simp

theorem pageEnd_ends (a b : Int) (old : Json) : Dbg.pageEnd a b old ≠ .hang := by
  unfold Dbg.pageEnd
  repeat' split
  all_goals simp

theorem pageReply_ends (a b : Int) (j : Json) : Dbg.pageReply a b j ≠ .hang := by
  unfold Dbg.pageReply
  split
  · simp
  · refine Res.bind_ends (atKey_ends (fun _ => atKey_ends (fun _ => ?_) _) _) fun _ => by simp
    exact Res.bind_ends (pageEnd_ends _ _ _) fun _ => Res.bind_ends (pageLoop_ends _ _ _) fun _ => by simp

theorem intOr0_ends (v : Option Json) : Dbg.intOr0 v ≠ .hang := by
  unfold Dbg.intOr0
  split
  · exact getInt_ends _
  · simp

theorem page_ends (a r : Json) : Dbg.page a r ≠ .hang := by
  unfold Dbg.page
  split
  · simp
  · refine Res.bind_ends (intOr0_ends _) fun _ => Res.bind_ends (intOr0_ends _) fun _ => ?_
    split
    · simp
    · exact pageReply_ends _ _ _

theorem threadId_ends (m : Json) : Dbg.threadId m ≠ .hang :=
  Res.bind_ends (cidx_ends _ _) fun _ => Res.bind_ends (cidx_ends _ _) fun _ => getInt_ends _

/-! ## Programs of the debugger -/

/-- What is waited for. -/
inductive Wait where
  | idle | ack | reply
  deriving DecidableEq

/-- It is there. -/
def Open (w : Wait) (s : Dbg.State τ) : Prop :=
  match w with
  | .idle => True
  | .ack => s.acks ≠ []
  | .reply => s.replies ≠ []

def Sending : Dbg.Event → Prop
  | .header _ | .request _ => True
  | _ => False

/-- What will be waited for after an access. -/
def Turns (w : Wait) (s s' : Dbg.State τ) (w' : Wait) : Prop :=
  match w' with
  | .idle => (∀ e ∈ s'.out.drop s.out.length, ¬ Sending e) ∧
      (w = .idle ∨ s'.acks.length < s.acks.length ∨ s'.replies.length < s.replies.length)
  | .ack => ∃ h, s'.out.drop s.out.length = [.header h]
  | .reply => ∃ m, s'.out.drop s.out.length = [.request m]

/-- Programs that wait for an acknowledgment or an answer only, after having sent a header or a request. -/
def Bk : K (Dbg.State τ) α → Wait → Prop
  | .done r, w => w = .idle ∧ r ≠ .hang
  | .act f k, w => (∀ s, Open w s → (f s).1 ≠ .hang) ∧ ∀ s, (f s).1 ≠ .hang → ∃ w', Turns w s (f s).2 w' ∧
      (∀ b, (f s).1 = .ok b → Bk (k (.ok b)) w') ∧ (∀ e, (f s).1 = .exc e → Bk (k (.error e)) w') ∧
      (∀ u, (f s).1 = .ub u → w' = .idle)

theorem Bk.bind {p : K (Dbg.State τ) α} {q : α → K (Dbg.State τ) β} {w : Wait} (hp : Bk p w) (hq : ∀ a, Bk (q a) .idle) :
    Bk (p >>= q) w := by
  show Bk (p.bind q) w
  induction p generalizing w with
  | done r =>
    obtain ⟨rfl, h⟩ := hp
    cases r with
    | ok a => exact hq a
    | exc e => exact ⟨rfl, by simp⟩
    | ub e => exact ⟨rfl, by simp⟩
    | hang => exact absurd rfl h
  | act f k ih =>
    refine ⟨hp.1, fun s hs => ?_⟩
    obtain ⟨w', h1, h2, h3, h4⟩ := hp.2 s hs
    exact ⟨w', h1, fun b hb => ih _ (h2 b hb), fun e he => ih _ (h3 e he), h4⟩

theorem Bk.attempt {p : K (Dbg.State τ) α} {w : Wait} (hp : Bk p w) : Bk p.attempt w := by
  induction p generalizing w with
  | done r =>
    obtain ⟨rfl, h⟩ := hp
    cases r with
    | hang => exact absurd rfl h
    | _ => exact ⟨rfl, by simp⟩
  | act f k ih =>
    refine ⟨hp.1, fun s hs => ?_⟩
    obtain ⟨w', h1, h2, h3, h4⟩ := hp.2 s hs
    exact ⟨w', h1, fun b hb => ih _ (h2 b hb), fun e he => ih _ (h3 e he), h4⟩

theorem Bk.lift {f : Dbg.State τ → Res α × Dbg.State τ} {w : Wait} (h1 : ∀ s, Open w s → (f s).1 ≠ .hang)
    (h2 : ∀ s, (f s).1 ≠ .hang → Turns w s (f s).2 .idle) : Bk (K.lift f) w :=
  ⟨h1, fun s hs => ⟨.idle, h2 s hs, fun b hb => ⟨rfl, by simp⟩, fun e he => ⟨rfl, by simp⟩, fun _ _ => rfl⟩⟩

theorem turns_silent {s s' : Dbg.State τ} (h : ∀ e ∈ s'.out.drop s.out.length, ¬ Sending e) : Turns .idle s s' .idle := ⟨h, .inl rfl⟩

theorem turns_same {s s' : Dbg.State τ} (h : s'.out = s.out) : Turns .idle s s' .idle :=
  turns_silent (by rw [h, List.drop_length]; intro e he; cases he)

theorem Bk.ofRes {r : Res α} (h : r ≠ .hang) : Bk (K.ofRes r : K (Dbg.State τ) α) .idle := ⟨rfl, h⟩
theorem Bk.pure (a : α) : Bk (Pure.pure a : K (Dbg.State τ) α) .idle := ⟨rfl, by simp⟩

theorem Bk.read (f : Dbg.State τ → α) : Bk (K.read f) .idle := Bk.lift (fun _ _ => by simp) fun _ _ => turns_same rfl
theorem Bk.readR {f : Dbg.State τ → Res α} (h : ∀ s, f s ≠ .hang) : Bk (K.readR f) .idle :=
  Bk.lift (fun s _ => h s) fun _ _ => turns_same rfl
theorem Bk.modify {f : Dbg.State τ → Dbg.State τ} (h : ∀ s, (f s).out = s.out) : Bk (K.modify f) .idle :=
  Bk.lift (fun _ _ => by simp) fun s _ => turns_same (h s)

theorem bk_recvAck : Bk (Dbg.recvAck (σ := τ)) .ack := by
  refine Bk.lift (fun s hs => ?_) fun s hs => ?_
  · cases h : s.acks with
    | nil => exact absurd h hs
    | cons a l => simp
  · cases h : s.acks with
    | nil => simp [h] at hs
    | cons a l => exact ⟨(by intro e he; rw [List.drop_length] at he; cases he), .inr (.inl (by simp [h]))⟩

theorem bk_recvReply : Bk (Dbg.recvReply (σ := τ)) .reply := by
  refine Bk.lift (fun s hs => ?_) fun s hs => ?_
  · cases h : s.replies with
    | nil => exact absurd h hs
    | cons a l => simp
  · cases h : s.replies with
    | nil => simp [h] at hs
    | cons a l => exact ⟨(by intro e he; rw [List.drop_length] at he; cases he), .inr (.inr (by simp [h]))⟩

/-- Sending, then receiving. -/
theorem bk_exchange {e : Dbg.Event} {w : Wait} {q : Unit → K (Dbg.State τ) α} (hq : Bk (q ()) w)
    (ht : ∀ s : Dbg.State τ, Turns .idle s { s with out := s.out ++ [e] } w) : Bk (Dbg.emit e >>= q) .idle :=
  ⟨fun _ _ => by simp, fun s _ => ⟨w, ht s, fun b _ => hq, (fun e he => by cases he), (fun u hu => by cases hu)⟩⟩

theorem bk_forward (m : Json) : Bk (Dbg.forwardMessage d m) .idle :=
  Bk.bind (Bk.ofRes (write_ends _ _ _)) fun c => bk_exchange (w := .reply) (Bk.bind bk_recvReply fun _ => Bk.ofRes (parse_ends _ _))
    fun s => ⟨_, List.drop_left' rfl⟩

theorem bk_sendHeader (header : Json) : Bk (Dbg.sendHeader d header) .idle :=
  Bk.bind (Bk.ofRes (write_ends _ _ _)) fun c => bk_exchange (w := .ack) (Bk.bind bk_recvAck fun _ => Bk.pure _)
    fun s => ⟨_, List.drop_left' rfl⟩

section
variable (hr : Returns d)
include hr

theorem bk_debugInfo (m : Json) : Bk (Dbg.debugInfo d m) .idle :=
  Bk.bind (Bk.read _) fun _ => Bk.bind (Bk.readR fun s => hr.info _) fun _ => Bk.bind (Bk.ofRes (cidx_ends _ _)) fun _ =>
    Bk.bind (Bk.ofRes (cidx_ends _ _)) fun _ => Bk.read _

theorem bk_dumpCell (m : Json) : Bk (Dbg.dumpCell d m) .idle := by
  refine Bk.bind (Bk.ofRes (cellCode_ends _)) fun code => Bk.bind (Bk.readR fun s => hr.cellFile _ _) fun path =>
    Bk.bind (Bk.modify fun s => ?_) fun _ =>
    Bk.bind (Bk.ofRes (cidx_ends _ _)) fun _ => Bk.bind (Bk.ofRes (cidx_ends _ _)) fun _ => Bk.pure _
  unfold Dbg.dump
  split
  · rfl
  · split <;> rfl

omit hr in
theorem bk_source (m : Json) : Bk (Dbg.source d m) .idle :=
  Bk.bind (Bk.ofRes (sourcePathOrEmpty_ends _)) fun _ => Bk.bind (Bk.read _) fun _ => Bk.bind (Bk.ofRes (cidx_ends _ _)) fun _ =>
    Bk.bind (Bk.ofRes (cidx_ends _ _)) fun _ => Bk.pure _

omit hr in
theorem bk_setBreakpoints (m : Json) : Bk (Dbg.setBreakpoints d m) .idle :=
  Bk.bind (Bk.ofRes (sourcePath_ends _)) fun _ => Bk.bind (Bk.modify fun _ => rfl) fun _ =>
    Bk.bind (Bk.ofRes (cidx_ends _ _)) fun _ => Bk.bind (Bk.ofRes (cidx_ends _ _)) fun _ =>
    Bk.bind (Bk.modify fun _ => rfl) fun _ => bk_forward m

omit hr in
theorem bk_stackTrace (m : Json) : Bk (Dbg.stackTrace d m) .idle := Bk.bind (bk_forward m) fun _ => Bk.ofRes (cutReply_ends _)

omit hr in
theorem bk_variables (m : Json) : Bk (Dbg.variables d m) .idle :=
  Bk.bind (bk_forward m) fun _ => Bk.bind (Bk.ofRes (cidx_ends _ _)) fun _ => Bk.ofRes (page_ends _ _)

omit hr in
theorem bk_continued (m : Json) : Bk (Dbg.continuedEvent (σ := τ) m) .idle :=
  Bk.bind (Bk.ofRes (threadId_ends _)) fun _ => Bk.modify fun _ => rfl

omit hr in
theorem bk_stopped (m : Json) : Bk (Dbg.stoppedEvent (σ := τ) m) .idle :=
  Bk.bind (Bk.ofRes (threadId_ends _)) fun _ => Bk.modify fun _ => rfl

theorem bk_sem (o : Dbg.Op) : Bk (Dbg.sem d o) .idle := by
  cases o with
  | isStarted => exact Bk.read _
  | stoppedThreads => exact Bk.read _
  | forward m => exact Bk.bind (bk_forward m) fun _ => Bk.pure _
  | debugInfo m => exact Bk.bind (bk_debugInfo hr m) fun _ => Bk.pure _
  | dumpCell m => exact Bk.bind (bk_dumpCell hr m) fun _ => Bk.pure _
  | setBreakpoints m => exact Bk.bind (bk_setBreakpoints m) fun _ => Bk.pure _
  | source m => exact Bk.bind (bk_source m) fun _ => Bk.pure _
  | stackTrace m => exact Bk.bind (bk_stackTrace m) fun _ => Bk.pure _
  | variables m => exact Bk.bind (bk_variables m) fun _ => Bk.pure _
  | continuedEvent m => exact Bk.bind (bk_continued m) fun _ => Bk.pure _
  | stoppedEvent m => exact Bk.bind (bk_stopped m) fun _ => Bk.pure _

theorem bk_exec {p : Prog τ Dbg.Op α} (h : NoLoop p) : Bk (Dbg.exec d p) .idle := by
  induction h with
  | ret => exact Bk.pure _
  | throw => exact ⟨rfl, by simp⟩
  | ub => exact Bk.ofRes (by simp)
  | get _ ih => exact Bk.bind (Bk.read _) fun s => ih s
  | set _ ih => exact Bk.bind (Bk.modify fun _ => rfl) fun _ => ih
  | call _ ih => exact Bk.bind (bk_sem hr _).attempt fun r => ih r

theorem bk_handler {name : Str} {b : Bool} {h : Dbg.Handler τ} (hh : d.requestHandler b name = some h) (m : Json) :
    Bk (Dbg.runHandler d m h) .idle := by
  cases h with
  | debugInfo => exact bk_debugInfo hr m
  | dumpCell => exact bk_dumpCell hr m
  | setBreakpoints => exact bk_setBreakpoints m
  | source => exact bk_source m
  | stackTrace => exact bk_stackTrace m
  | variables => exact bk_variables m
  | user f =>
    rcases List.mem_append.1 (Dbg.requestHandler_mem hh) with hm | hm
    · simp at hm
    · exact bk_exec hr (hr.requests _ _ f hm m)

theorem bk_callStart : Bk (Dbg.callStart d) .idle := by
  refine Bk.lift (fun s _ => ?_) fun s _ => ?_
  · have := hr.start s.st
    rcases hst : d.start s.st with ⟨r, st⟩
    rw [hst] at this
    cases r <;> simp_all
  · refine turns_silent ?_
    rcases hst : d.start s.st with ⟨r, st⟩
    cases r with
    | ok b =>
      intro e he
      simp only [List.drop_left, List.mem_singleton] at he
      rw [he]; exact id
    | _ => intro e he; simp at he

theorem bk_callStop : Bk (Dbg.callStop d) .idle := by
  refine Bk.lift (fun s _ => ?_) fun s _ => ?_
  · have := hr.stop s.st
    rcases hst : d.stop s.st with ⟨r, st⟩
    rw [hst] at this
    cases r <;> simp_all
  · refine turns_silent ?_
    rcases hst : d.stop s.st with ⟨r, st⟩
    cases r with
    | ok b =>
      intro e he
      simp only [List.drop_left, List.mem_singleton] at he
      rw [he]; exact id
    | _ => intro e he; simp at he

theorem bk_request (header m : Json) : Bk (Dbg.processRequest d header m) .idle := by
  refine Bk.bind (Bk.ofRes (cidx_ends _ _)) fun command => Bk.bind ?_ fun reply₀ => Bk.bind (Bk.ofRes (getStr_ends _)) fun name =>
    Bk.bind ?_ fun reply => Bk.bind ?_ fun _ => Bk.pure _
  · unfold Dbg.initPart
    split
    · refine Bk.bind (Bk.read _) fun b => ?_
      split
      · exact Bk.pure _
      · refine Bk.bind (bk_callStart hr) fun b => ?_
        split
        · exact Bk.pure _
        · exact Bk.bind (Bk.ofRes (cidx_ends _ _)) fun _ => Bk.pure _
    · exact Bk.pure _
  · cases hh : d.requestHandler false name with
    | some h => exact bk_handler hr hh m
    | none =>
      refine Bk.bind (Bk.read _) fun b => ?_
      split
      · refine Bk.bind (bk_sendHeader header) fun _ => ?_
        cases hk : d.requestHandler true name with
        | some h => exact bk_handler hr hk m
        | none => exact bk_forward m
      · exact Bk.pure _
  · unfold Dbg.disconnectPart
    split
    · exact Bk.bind (bk_callStop hr) fun _ => Bk.bind (Bk.modify fun _ => rfl) fun _ => Bk.bind (Bk.modify fun _ => rfl) fun _ =>
        Bk.modify fun _ => rfl
    · exact Bk.pure _

end

/-! ## The invariant -/

/-- What is waited for according to the record. -/
def waitOf (log : List LinkEv) : Wait :=
  (log.filterMap fun
    | .dbg (.header _) => some Wait.ack
    | .dbg (.request _) => some Wait.reply
    | .acked _ | .answered _ => some Wait.idle
    | _ => none).getLast?.getD .idle

theorem waitOf_skip {log es : List LinkEv} (h : ∀ e ∈ es, match e with
      | .dbg (.header _) | .dbg (.request _) | .acked _ | .answered _ => False
      | _ => True) : waitOf (log ++ es) = waitOf log := by
  unfold waitOf
  rw [List.filterMap_append]
  have : es.filterMap (fun
    | .dbg (.header _) => some Wait.ack
    | .dbg (.request _) => some Wait.reply
    | .acked _ | .answered _ => some Wait.idle
    | _ => none) = [] := by
    rw [List.filterMap_eq_nil_iff]
    intro e he
    have := h e he
    cases e with
    | dbg x => cases x <;> first | rfl | exact this.elim
    | acked x => exact this.elim
    | answered x => exact this.elim
    | _ => rfl
  rw [this, List.append_nil]

theorem waitOf_last {log : List LinkEv} {e : LinkEv} : waitOf (log ++ [e]) = match e with
    | .dbg (.header _) => .ack
    | .dbg (.request _) => .reply
    | .acked _ | .answered _ => .idle
    | _ => waitOf log := by
  cases e with
  | dbg x => cases x <;> simp [waitOf, List.filterMap_append]
  | _ => simp [waitOf, List.filterMap_append]

theorem waitOf_dbg {log : List LinkEv} {s s' : Dbg.State τ} {w' : Wait} (h : Turns (waitOf log) s s' w') :
    waitOf (log ++ dbgEntries s s') = w' := by
  unfold dbgEntries
  cases w' with
  | ack =>
    obtain ⟨x, hx⟩ := h
    rw [hx, List.map_singleton, ← List.append_assoc, waitOf_last]
  | reply =>
    obtain ⟨x, hx⟩ := h
    rw [hx, List.map_singleton, ← List.append_assoc, waitOf_last]
  | idle =>
    obtain ⟨h1, h2⟩ := h
    rw [← List.append_assoc, waitOf_skip]
    · have idleAfter : ∀ (l : List LinkEv) (es : List LinkEv), (∀ e ∈ es, ∃ a, e = .acked a ∨ e = .answered a) →
          (waitOf l = .idle ∨ es ≠ []) → waitOf (l ++ es) = .idle := by
        intro l es
        induction es generalizing l with
        | nil => intro _ h; simpa using h
        | cons e es ih =>
          intro he _
          have : l ++ e :: es = (l ++ [e]) ++ es := by simp
          rw [this]
          refine ih _ (fun x hx => he x (List.mem_cons_of_mem _ hx)) (.inl ?_)
          obtain ⟨a, h | h⟩ := he e List.mem_cons_self <;> rw [h, waitOf_last]
      apply idleAfter
      · intro e he
        simp only [List.mem_append, List.mem_map] at he
        rcases he with ⟨a, _, rfl⟩ | ⟨a, _, rfl⟩
        · exact ⟨a, .inl rfl⟩
        · exact ⟨a, .inr rfl⟩
      · rcases h2 with h2 | h2 | h2
        · exact .inl h2
        · refine .inr fun hx => ?_
          have hlen := congrArg List.length (List.append_eq_nil_iff.1 hx).1
          simp only [List.length_map, List.length_take, List.length_nil] at hlen
          omega
        · refine .inr fun hx => ?_
          have hlen := congrArg List.length (List.append_eq_nil_iff.1 hx).2
          simp only [List.length_map, List.length_take, List.length_nil] at hlen
          omega
    · intro e he
      obtain ⟨x, hx, rfl⟩ := List.mem_map.1 he
      have := h1 x hx
      cases x <;> first | trivial | exact this trivial

/-- The program in hand waits for the client only. -/
def Prompt (s : Link τ σ) : Prop :=
  (s.ctl = none → waitOf s.log = .idle) ∧ ∀ p, s.ctl = some p → Bk p (waitOf s.log)

theorem bk_step {p p' : K (Dbg.State τ) α} {s t : Dbg.State τ} {log : List LinkEv} (h : Bk p (waitOf log)) (hr : Ready p s)
    (hst : p.step s = some (p', t)) : Bk p' (waitOf (log ++ dbgEntries s t)) := by
  cases p with
  | done r => exact hr.elim
  | act f k =>
    obtain ⟨w', h1, h2, h3, h4⟩ := h.2 s hr
    simp only [K.step, Option.some.injEq] at hst
    simp only [Ready] at hr
    rcases hf : f s with ⟨r, x⟩
    rw [hf] at hst h1 h2 h3 h4 hr
    have hx : t = x := by cases r <;> simp only [Prod.mk.injEq] at hst <;> first | exact hst.2.symm | exact absurd rfl hr
    subst hx
    rw [waitOf_dbg h1]
    cases r with
    | ok b => simp only [Prod.mk.injEq] at hst; rw [← hst.1]; exact h2 b rfl
    | exc e => simp only [Prod.mk.injEq] at hst; rw [← hst.1]; exact h3 e rfl
    | ub w => simp only [Prod.mk.injEq] at hst; rw [← hst.1, h4 w rfl]; exact ⟨rfl, by simp⟩
    | hang => exact absurd rfl hr

theorem prompt_step (hr : Returns d) {s s' : Link τ σ} (h : Prompt s) (hs : Step d cl s s') : Prompt s' := by
  have same : ∀ {s' : Link τ σ} (es : List LinkEv), s'.ctl = s.ctl → s'.log = s.log ++ es → (∀ e ∈ es, match e with
      | .dbg (.header _) | .dbg (.request _) | .acked _ | .answered _ => False
      | _ => True) → Prompt s' := by
    intro s' es h1 h2 h3
    unfold Prompt
    rw [h1, h2, waitOf_skip h3]
    exact h
  have client : ∀ c : Dap σ, ∀ e ∈ dapEntries s.dap c, match e with
      | .dbg (.header _) | .dbg (.request _) | .acked _ | .answered _ => False
      | _ => True := by
    intro c e he
    simp only [dapEntries, List.mem_append, List.mem_map] at he
    rcases he with ⟨_, _, rfl⟩ | ⟨_, _, rfl⟩ <;> trivial
  cases hs with
  | call header m hf =>
    refine ⟨(fun hx => by cases hx), fun p hp => ?_⟩
    cases hp
    rw [waitOf_skip (fun e he => by rw [List.mem_singleton.1 he]; trivial), h.1 hf]
    exact bk_request hr header m
  | ret hp _ _ =>
    refine ⟨fun _ => ?_, fun p hp => by cases hp⟩
    rw [waitOf_skip (fun e he => by rw [List.mem_singleton.1 he]; trivial)]
    exact (h.2 _ hp).1
  | @dbg p p' t hp hrd hst _ =>
    refine ⟨(fun hx => by cases hx), fun p hp' => ?_⟩
    cases hp'
    exact bk_step (h.2 _ hp) hrd hst
  | @start p p' t c q hp hrd hst _ _ _ =>
    refine ⟨(fun hx => by cases hx), fun p hp' => ?_⟩
    cases hp'
    exact bk_step (h.2 _ hp) hrd hst
  | io _ _ _ => exact same _ rfl rfl (client _)
  | msg _ _ _ => exact same _ rfl rfl (client _)
  | arrive bytes _ => exact same _ rfl rfl (fun e he => by rw [List.mem_singleton.1 he]; trivial)
  | _ => exact same [] rfl (by simp) (fun e he => by cases he)

theorem prompt_reach (hr : Returns d) {u : τ} {files : Str → Option Str} {v : σ} {s : Link τ σ}
    (h : Reach d cl u files v s) : Prompt s := by
  induction h with
  | init => exact ⟨fun _ => rfl, fun p hp => by cases hp⟩
  | step _ hs ih => exact prompt_step hr ih hs

end Xeus.Link
