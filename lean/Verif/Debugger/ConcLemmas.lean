import Verif.Debugger.ConcSpec
import Verif.Debugger.Records
import Verif.Debugger.Answers
import Verif.Link.Wp

/-!
# The debugger used by two threads: lemmas

No property statements here.
-/

namespace Xeus.Dbg

open Xeus Dbg.Spec K

section
variable {S α β : Type} {R : S → S → Prop}

/-- Every access moves along `R`, whatever happens in between. -/
def Acts (R : S → S → Prop) : K S α → Prop
  | .done _ => True
  | .act f k => (∀ s, R s (f s).2) ∧ ∀ r, Acts R (k r)

theorem Acts.mono {R' : S → S → Prop} (h : ∀ s s', R s s' → R' s s') {p : K S α} (hp : Acts R p) : Acts R' p := by
  induction p with
  | done r => trivial
  | act f k ih => exact ⟨fun s => h _ _ (hp.1 s), fun r => ih r (hp.2 r)⟩

theorem Acts.bind {p : K S α} {g : α → K S β} (hp : Acts R p) (hg : ∀ a, Acts R (g a)) : Acts R (p >>= g) := by
  show Acts R (p.bind g)
  induction p with
  | done r => cases r <;> first | exact hg _ | trivial
  | act f k ih => exact ⟨hp.1, fun r => ih r (hp.2 r)⟩

theorem Acts.attempt {p : K S α} (hp : Acts R p) : Acts R p.attempt := by
  induction p with
  | done r => cases r <;> trivial
  | act f k ih => exact ⟨hp.1, fun r => ih r (hp.2 r)⟩

theorem Acts.pure (a : α) : Acts R (Pure.pure a : K S α) := trivial
theorem Acts.ofRes (r : Res α) : Acts R (K.ofRes r : K S α) := trivial
theorem Acts.throw (e : Exc) : Acts R (K.throw e : K S α) := trivial

theorem ofRes_bind (a : α) (g : α → K S β) : (K.ofRes (.ok a) >>= g) = g a := rfl

theorem Acts.lift {f : S → Res α × S} (h : ∀ s, R s (f s).2) : Acts R (K.lift f) :=
  ⟨h, fun r => by cases r <;> trivial⟩

theorem Acts.read (hr : ∀ s, R s s) (f : S → α) : Acts R (K.read f) := Acts.lift fun s => hr s
theorem Acts.readR (hr : ∀ s, R s s) (f : S → Res α) : Acts R (K.readR f) := Acts.lift fun s => hr s
theorem Acts.modify {f : S → S} (h : ∀ s, R s (f s)) : Acts R (K.modify f) := Acts.lift h

theorem Acts.step {p p' : K S α} {s s' : S} (hp : Acts R p) (h : p.step s = some (p', s')) : R s s' ∧ Acts R p' := by
  cases p with
  | done r => cases h
  | act f k =>
    have h1 := hp.1 s
    simp only [K.step, Option.some.injEq] at h
    rcases hf : f s with ⟨r, t⟩
    rw [hf] at h h1
    cases r <;> simp only [Prod.mk.injEq] at h <;> obtain ⟨rfl, rfl⟩ := h
    · exact ⟨h1, hp.2 _⟩
    · exact ⟨h1, hp.2 _⟩
    · exact ⟨h1, trivial⟩
    · exact ⟨h1, trivial⟩

end

section
variable {σ : Type} {d : Debugger σ}

/-- The set of stopped threads is left alone. -/
def SameThreads (s s' : State σ) : Prop := s'.threads = s.threads

theorem same_refl (s : State σ) : SameThreads s s := rfl

theorem acts_emit (e : Event) : Acts SameThreads (emit (σ := σ) e) := Acts.modify fun _ => rfl

theorem acts_recvReply : Acts SameThreads (recvReply (σ := σ)) := Acts.lift fun s => by
  unfold SameThreads
  split <;> rfl

theorem acts_recvAck : Acts SameThreads (recvAck (σ := σ)) := Acts.lift fun s => by
  unfold SameThreads
  split <;> rfl

theorem acts_forward (m : Json) : Acts SameThreads (forwardMessage d m) :=
  Acts.bind (Acts.ofRes _) fun _ => Acts.bind (acts_emit _) fun _ => Acts.bind acts_recvReply fun _ => Acts.ofRes _

theorem acts_debugInfo (m : Json) : Acts SameThreads (debugInfo d m) :=
  Acts.bind (Acts.read same_refl _) fun _ => Acts.bind (Acts.readR same_refl _) fun _ => Acts.bind (Acts.ofRes _) fun _ =>
    Acts.bind (Acts.ofRes _) fun _ => Acts.read same_refl _

theorem acts_dumpCell (m : Json) : Acts SameThreads (dumpCell d m) :=
  Acts.bind (Acts.ofRes _) fun _ => Acts.bind (Acts.readR same_refl _) fun _ => Acts.bind (Acts.modify fun s => by
    unfold SameThreads dump
    split
    · rfl
    · split <;> rfl) fun _ => Acts.bind (Acts.ofRes _) fun _ => Acts.bind (Acts.ofRes _) fun _ => Acts.pure _

theorem acts_setBreakpoints (m : Json) : Acts SameThreads (setBreakpoints d m) :=
  Acts.bind (Acts.ofRes _) fun _ => Acts.bind (Acts.modify fun _ => rfl) fun _ => Acts.bind (Acts.ofRes _) fun _ =>
    Acts.bind (Acts.ofRes _) fun _ => Acts.bind (Acts.modify fun _ => rfl) fun _ => acts_forward m

theorem acts_source (m : Json) : Acts SameThreads (source d m) :=
  Acts.bind (Acts.ofRes _) fun _ => Acts.bind (Acts.read same_refl _) fun _ => Acts.bind (Acts.ofRes _) fun _ =>
    Acts.bind (Acts.ofRes _) fun _ => Acts.pure _

theorem acts_stackTrace (m : Json) : Acts SameThreads (stackTrace d m) :=
  Acts.bind (acts_forward m) fun _ => Acts.ofRes _

theorem acts_variables (m : Json) : Acts SameThreads (variables d m) :=
  Acts.bind (acts_forward m) fun _ => Acts.bind (Acts.ofRes _) fun _ => Acts.ofRes _

theorem acts_sem {o : Op} (h : Records o = false) : Acts SameThreads (sem d o) := by
  cases o with
  | isStarted => exact Acts.read same_refl _
  | stoppedThreads => exact Acts.read same_refl _
  | forward m => exact Acts.bind (acts_forward m) fun _ => Acts.pure _
  | debugInfo m => exact Acts.bind (acts_debugInfo m) fun _ => Acts.pure _
  | dumpCell m => exact Acts.bind (acts_dumpCell m) fun _ => Acts.pure _
  | setBreakpoints m => cases h
  | source m => exact Acts.bind (acts_source m) fun _ => Acts.pure _
  | stackTrace m => exact Acts.bind (acts_stackTrace m) fun _ => Acts.pure _
  | variables m => exact Acts.bind (acts_variables m) fun _ => Acts.pure _
  | continuedEvent m => cases h
  | stoppedEvent m => cases h

theorem acts_exec {α : Type} (p : Prog σ Op α) (h : Calls (fun o => Records o = false) p) : Acts SameThreads (exec d p) := by
  induction p with
  | ret a => exact Acts.pure _
  | throw e => exact Acts.throw _
  | ub w => exact Acts.ofRes _
  | hang => exact Acts.ofRes _
  | get k ih => exact Acts.bind (Acts.read same_refl _) fun s => ih s (h s)
  | set st k ih => exact Acts.bind (Acts.modify fun _ => rfl) fun _ => ih h
  | call o k ih => exact Acts.bind (acts_sem h.1).attempt fun r => ih r (h.2 r)

theorem acts_handler (hd : Extends d) {b : Bool} {name : Str} {h : Handler σ} (hh : d.requestHandler b name = some h) (m : Json) :
    Acts SameThreads (runHandler d m h) := by
  rcases List.mem_append.1 (requestHandler_mem hh) with hm | hm
  · simp only [List.mem_cons, List.not_mem_nil, or_false, Prod.mk.injEq] at hm
    rcases hm with ⟨_, _, rfl⟩ | ⟨_, _, rfl⟩ | ⟨_, _, rfl⟩ | ⟨_, _, rfl⟩ | ⟨_, _, rfl⟩ | ⟨_, _, rfl⟩
    · exact acts_debugInfo m
    · exact acts_dumpCell m
    · exact acts_setBreakpoints m
    · exact acts_source m
    · exact acts_stackTrace m
    · exact acts_variables m
  · obtain ⟨_, f, rfl, hf⟩ := hd.requests _ _ _ hm
    exact acts_exec _ (hf m)

theorem acts_callStart : Acts SameThreads (callStart d) := Acts.lift fun s => by
  unfold SameThreads
  split <;> rfl

theorem acts_callStop : Acts SameThreads (callStop d) := Acts.lift fun s => by
  unfold SameThreads
  split <;> rfl

theorem acts_initPart (m command : Json) : Acts SameThreads (initPart d m command) := by
  unfold initPart
  split
  · refine Acts.bind (Acts.read same_refl _) fun b => ?_
    split
    · exact Acts.pure _
    · refine Acts.bind acts_callStart fun b => ?_
      split
      · exact Acts.pure _
      · exact Acts.bind (Acts.ofRes _) fun _ => Acts.pure _
  · exact Acts.pure _

theorem acts_dispatch (hd : Extends d) (header m reply : Json) (name : Str) :
    Acts SameThreads (dispatch d header m reply name (d.requestHandler false name)) := by
  cases hh : d.requestHandler false name with
  | some h => exact acts_handler hd hh m
  | none =>
    refine Acts.bind (Acts.read same_refl _) fun b => ?_
    split
    · refine Acts.bind (Acts.bind (Acts.ofRes _) fun _ => Acts.bind (acts_emit _) fun _ => Acts.bind acts_recvAck fun _ => Acts.pure _)
        fun _ => ?_
      cases hh' : d.requestHandler true name with
      | some h => exact acts_handler hd hh' m
      | none => exact acts_forward m
    · exact Acts.pure _

/-- The set of stopped threads is left alone or emptied. -/
def SameOrNone (s s' : State σ) : Prop := s'.threads = s.threads ∨ s'.threads = []

theorem acts_disconnect (command : Json) : Acts SameOrNone (disconnectPart d command) := by
  unfold disconnectPart
  split
  · exact Acts.bind (acts_callStop.mono fun _ _ h => .inl h) fun _ => Acts.bind (Acts.modify fun _ => .inl rfl) fun _ =>
      Acts.bind (Acts.modify fun _ => .inr rfl) fun _ => Acts.modify fun _ => .inl rfl
  · exact Acts.pure _

theorem acts_request (hd : Extends d) (header m : Json) : Acts SameOrNone (processRequest d header m) :=
  Acts.bind (Acts.ofRes _) fun command => Acts.bind ((acts_initPart m command).mono fun _ _ h => .inl h) fun reply =>
    Acts.bind (Acts.ofRes _) fun name => Acts.bind ((acts_dispatch hd header m reply name).mono fun _ _ h => .inl h) fun _ =>
      Acts.bind (acts_disconnect command) fun _ => Acts.pure _

theorem acts_request_other (hd : Extends d) (header m : Json) (hm : ¬ Disconnects m) : Acts SameThreads (processRequest d header m) := by
  unfold processRequest
  cases hc : m.cidx (lit "command") with
  | ok command =>
    rw [ofRes_bind]
    refine Acts.bind (acts_initPart m command) fun reply => ?_
    cases hn : command.getStr with
    | ok name =>
      rw [ofRes_bind]
      refine Acts.bind (acts_dispatch hd header m reply name) fun _ => ?_
      rw [getStr_ok] at hn
      subst hn
      have : isText (.str name) "disconnect" = false := by
        rw [isText_str]
        refine decide_eq_false fun e => hm ?_
        subst e
        exact .member (cidx_ok.1 hc) .here
      refine Acts.bind ?_ fun _ => Acts.pure _
      unfold disconnectPart
      rw [this]
      exact Acts.pure _
    | _ => trivial
  | _ => trivial

/-! ## Events -/

theorem event_name {name : String} {m : Json} {t : Int} (h : About name m t) :
    (do let e ← m.cidx (lit "event"); e.getStr : Res Str) = .ok (lit name) ∧ threadId m = .ok t := by
  obtain ⟨v, hn, hv, hi⟩ := h
  refine ⟨?_, threadId_ok.2 ⟨v, hv, hi⟩⟩
  obtain ⟨w, hw, hn⟩ := at_cons.1 hn
  rw [at_nil] at hn
  subst hn
  rw [Res.bind_eq_ok]
  exact ⟨_, cidx_ok.2 hw, rfl⟩

theorem about_of {name : String} {m : Json} {t : Int} (hn : (do let e ← m.cidx (lit "event"); e.getStr : Res Str) = .ok (lit name))
    (ht : threadId m = .ok t) : About name m t := by
  obtain ⟨e, he, hg⟩ := Res.bind_eq_ok.1 hn
  obtain ⟨v, hv, hi⟩ := threadId_ok.1 ht
  rw [getStr_ok] at hg
  subst hg
  exact ⟨v, .member (cidx_ok.1 he) .here, hv, hi⟩

theorem handle_stopped (hd : Extends d) {m : Json} {t : Int} (h : About "stopped" m t) :
    handleEvent d m = K.modify fun s => { s with threads := insertThread t s.threads } := by
  obtain ⟨h1, h2⟩ := event_name h
  simp only [handleEvent, h1, ofRes_bind, (handler_events hd).2, runEvent, runEvHandler, stoppedEvent, h2]

theorem handle_continued (hd : Extends d) {m : Json} {t : Int} (h : About "continued" m t) :
    handleEvent d m = K.modify fun s => { s with threads := s.threads.filter fun x => decide (x ≠ t) } := by
  obtain ⟨h1, h2⟩ := event_name h
  simp only [handleEvent, h1, ofRes_bind, (handler_events hd).1, runEvent, runEvHandler, continuedEvent, h2]

/-- What the accesses of an event do to the set. -/
def Change (m : Json) (s s' : State σ) : Prop :=
  s'.threads = s.threads ∨ (∃ t, About "stopped" m t ∧ s'.threads = insertThread t s.threads) ∨
    ∃ t, About "continued" m t ∧ s'.threads = s.threads.filter fun x => decide (x ≠ t)

theorem acts_event (hd : Extends d) (m : Json) : Acts (Change m) (handleEvent d m) := by
  unfold handleEvent
  cases hn : (do let e ← m.cidx (lit "event"); e.getStr : Res Str) with
  | ok name =>
    show Acts (Change m) (runEvent d m (d.eventHandler name))
    cases hh : d.eventHandler name with
    | none => exact Acts.pure _
    | some h =>
      rcases List.mem_append.1 (eventHandler_mem hh) with hm | hm
      · simp only [List.mem_cons, List.not_mem_nil, or_false, Prod.mk.injEq] at hm
        rcases hm with ⟨rfl, rfl⟩ | ⟨rfl, rfl⟩
        · show Acts (Change m) (continuedEvent m)
          unfold continuedEvent
          cases ht : threadId m with
          | ok t => exact Acts.modify fun s => .inr (.inr ⟨t, about_of hn ht, rfl⟩)
          | _ => trivial
        · show Acts (Change m) (stoppedEvent m)
          unfold stoppedEvent
          cases ht : threadId m with
          | ok t => exact Acts.modify fun s => .inr (.inl ⟨t, about_of hn ht, rfl⟩)
          | _ => trivial
      · obtain ⟨_, f, rfl, hf⟩ := hd.events _ _ hm
        exact (acts_exec _ (hf m)).mono fun _ _ h => .inl h
  | _ => trivial

/-! ## Executions -/

theorem Moves.trans {p q r : Pair σ} (h : Moves d p q) (h' : Moves d q r) : Moves d p r := by
  induction h' with
  | refl => exact h
  | tail _ hm ih => exact ih.tail hm

theorem Moves.head {p q r : Pair σ} (h : Move d p q) (h' : Moves d q r) : Moves d p r := ((Moves.refl p).tail h).trans h'

theorem move_log {p q : Pair σ} (h : Move d p q) : q.log = p.log ∨ ∃ e, q.log = p.log ++ [e] := by
  cases h <;> first | exact .inl rfl | exact .inr ⟨_, rfl⟩

theorem moves_log {p q : Pair σ} (h : Moves d p q) : ∃ l, q.log = p.log ++ l := by
  induction h with
  | refl => exact ⟨[], by simp⟩
  | tail _ hm ih =>
    obtain ⟨l, hl⟩ := ih
    rcases move_log hm with h | ⟨e, h⟩
    · exact ⟨l, by rw [h, hl]⟩
    · exact ⟨l ++ [e], by rw [h, hl, List.append_assoc]⟩

/-- The moment at which something happened. -/
theorem moment {p q : Pair σ} (h : Moves d p q) {a b : List Mark} {e : Mark} (hl : q.log = p.log ++ (a ++ e :: b)) :
    ∃ m m', Moves d p m ∧ Move d m m' ∧ Moves d m' q ∧ m.log = p.log ++ a ∧ m'.log = m.log ++ [e] ∧ q.log = m'.log ++ b := by
  induction h generalizing b with
  | refl => exact absurd (congrArg List.length hl) (by simp)
  | @tail q r h hm ih =>
    rcases move_log hm with h' | ⟨e', h'⟩
    · rw [h'] at hl
      obtain ⟨m, m', h1, h2, h3, h4, h5, h6⟩ := ih hl
      exact ⟨m, m', h1, h2, h3.tail hm, h4, h5, by rw [h', h6]⟩
    · rcases List.eq_nil_or_concat b with rfl | ⟨b', x, rfl⟩
      · rw [h'] at hl
        have := List.append_inj' (s₁ := q.log) (t₁ := [e']) (s₂ := p.log ++ a) (t₂ := [e]) (by simpa using hl) rfl
        obtain ⟨h7, h8⟩ := this
        cases h8
        exact ⟨q, r, h, hm, .refl _, h7, h', by simp⟩
      · rw [h'] at hl
        have := List.append_inj' (s₁ := q.log) (t₁ := [e']) (s₂ := p.log ++ (a ++ e :: b')) (t₂ := [x]) (by simpa using hl) rfl
        obtain ⟨h7, h8⟩ := this
        cases h8
        obtain ⟨m, m', h1, h2, h3, h4, h5, h6⟩ := ih h7
        exact ⟨m, m', h1, h2, h3.tail hm, h4, h5, by rw [h', h6]; simp⟩

/-- `P` holds of the set and nothing that is going on changes that. -/
structure Holds (P : List Int → Prop) (p : Pair σ) : Prop where
  now : P p.s.threads
  ev : ∀ q, p.ev = some q → Acts (fun s s' => P s.threads → P s'.threads) q
  ctl : ∀ q, p.ctl = some q → Acts (fun s s' => P s.threads → P s'.threads) q

/-- What begins here does not change that `P` holds. -/
def Harmless (d : Debugger σ) (P : List Int → Prop) : Mark → Prop
  | .call h m => Acts (fun s s' => P s.threads → P s'.threads) (processRequest d h m)
  | .begins m => Acts (fun s s' => P s.threads → P s'.threads) (handleEvent d m)
  | _ => True

theorem holds_move {P : List Int → Prop} {p q : Pair σ} (h : Holds P p) (hm : Move d p q)
    (hl : ∀ e, q.log = p.log ++ [e] → Harmless d P e) : Holds P q := by
  cases hm with
  | call header m hc => exact ⟨h.now, h.ev, fun q hq => by cases hq; exact hl _ rfl⟩
  | ctl hc hr hs =>
    obtain ⟨h1, h2⟩ := (h.ctl _ hc).step hs
    exact ⟨h1 h.now, h.ev, fun q hq => by cases hq; exact h2⟩
  | ret hc => exact ⟨h.now, h.ev, by simp⟩
  | threw hc => exact ⟨h.now, h.ev, by simp⟩
  | begins m hc => exact ⟨h.now, fun q hq => by cases hq; exact hl _ rfl, h.ctl⟩
  | ev hc hr hs =>
    obtain ⟨h1, h2⟩ := (h.ev _ hc).step hs
    exact ⟨h1 h.now, fun q hq => by cases hq; exact h2, h.ctl⟩
  | ends hc => exact ⟨h.now, by simp, h.ctl⟩
  | fails hc => exact ⟨h.now, by simp, h.ctl⟩
  | world u files replies acks => exact ⟨h.now, h.ev, h.ctl⟩

theorem holds_moves {P : List Int → Prop} {p q : Pair σ} (h : Holds P p) (hm : Moves d p q) {l : List Mark}
    (hl : q.log = p.log ++ l) (hs : ∀ e ∈ l, Harmless d P e) : Holds P q := by
  induction hm generalizing l with
  | refl => exact h
  | @tail q r hm' hm ih =>
    obtain ⟨l', hl'⟩ := moves_log hm'
    have hsub : ∃ x, l = l' ++ x ∧ r.log = q.log ++ x := by
      rcases move_log hm with e | ⟨e, he⟩
      · exact ⟨[], by rw [e, hl'] at hl; simpa using (List.append_cancel_left hl).symm, by simp [e]⟩
      · exact ⟨[e], by rw [he, hl', List.append_assoc] at hl; exact (List.append_cancel_left hl).symm, he⟩
    obtain ⟨x, rfl, hx⟩ := hsub
    refine holds_move (ih hl' fun e he => hs e (by simp [he])) hm fun e he => hs e ?_
    rw [he] at hx
    rw [← List.append_cancel_left hx]
    simp

/-! ## The answer to debugInfo -/

def seenMv (g : List (List Int)) (s s' : State σ) (g' : List (List Int)) : Prop := g' = s.threads :: g ∧ s'.threads = s.threads

def Reported (g : List (List Int)) (r : Res Json) : Prop := ∀ a, r = .ok a → ∃ l ∈ g, ReportsThreads a l

theorem report_wp (hd : Extends d) {header m seq : Json} (hm : DebugInfo m seq) :
    Link.Wp (fun _ _ => True) seenMv Reported (processRequest d header m) [] := by
  have hp : processRequest d header m = debugInfo d m >>= fun r => Pure.pure r := by
    have h1 : isText (.str (lit "debugInfo")) "initialize" = false := by rw [isText_str]; decide +kernel
    have h2 : isText (.str (lit "debugInfo")) "disconnect" = false := by rw [isText_str]; decide +kernel
    have h3 : (Json.str (lit "debugInfo")).getStr = .ok (lit "debugInfo") := rfl
    simp only [processRequest, at_command hm.command, ofRes_bind, initPart, h1, h3, handler_debugInfo hd, dispatch, runHandler,
      disconnectPart, h2]
    rfl
  rw [hp]
  refine Link.Wp.bind (Link.Wp.bind (Link.Wp.lift fun s _ _ => ⟨_, ⟨rfl, rfl⟩, ?_⟩))
  refine Link.Wp.bind (Link.Wp.lift fun s' _ hne => ⟨_, ⟨rfl, rfl⟩, ?_⟩)
  dsimp only at hne ⊢
  cases hi : d.info s'.st with
  | ok i =>
    simp only [Link.Then, at_one hm.seq, at_command hm.command, ofRes_bind]
    refine Link.Wp.lift fun s'' _ _ => ⟨_, ⟨rfl, rfl⟩, ?_⟩
    intro a ha
    cases ha
    refine ⟨s''.threads, by simp, ?_⟩
    refine .member (v := infoBody i s''.started (if s.started then s.breakpoints.map breakpointEntry else []) s''.threads) ?_ (.member ?_ .here)
    · simp [response, Json.find?, Json.lookup]
    · have h : lit "breakpoints" ≠ lit "stoppedThreads" ∧ lit "exceptionPaths" ≠ lit "stoppedThreads" ∧
        lit "hashMethod" ≠ lit "stoppedThreads" ∧ lit "hashSeed" ≠ lit "stoppedThreads" ∧
        lit "isStarted" ≠ lit "stoppedThreads" ∧ lit "richRendering" ≠ lit "stoppedThreads" := by decide +kernel
      simp [infoBody, Json.find?, Json.lookup, h]
  | exc e => exact fun a ha => by cases ha
  | ub w => exact fun a ha => by cases ha
  | hang => exact absurd hi hne

/-- The request in hand has only seen sets of which `P` holds. -/
def Asking (P : List Int → Prop) (p : Pair σ) : Prop :=
  ∃ q g, p.ctl = some q ∧ Link.Wp (fun _ _ => True) seenMv Reported q g ∧ ∀ l ∈ g, P l

theorem asking_moves {P : List Int → Prop} {p q : Pair σ} (ha : Asking P p) (h : Holds P p) (hm : Moves d p q) {l : List Mark}
    (hl : q.log = p.log ++ l) (hs : ∀ e ∈ l, Harmless d P e) (hn : NoRequest l) : Asking P q := by
  induction hm generalizing l with
  | refl => exact ha
  | @tail q r hm' hm ih =>
    obtain ⟨l', hl'⟩ := moves_log hm'
    have hsub : ∃ x, l = l' ++ x ∧ r.log = q.log ++ x := by
      rcases move_log hm with e | ⟨e, he⟩
      · exact ⟨[], by rw [e, hl'] at hl; simpa using (List.append_cancel_left hl).symm, by simp [e]⟩
      · exact ⟨[e], by rw [he, hl', List.append_assoc] at hl; exact (List.append_cancel_left hl).symm, he⟩
    obtain ⟨x, rfl, hx⟩ := hsub
    have hq := holds_moves h hm' hl' fun e he => hs e (by simp [he])
    obtain ⟨k, g, h1, h2, h3⟩ := ih hl' (fun e he => hs e (by simp [he])) (fun e he => hn e (by simp [he]))
    have hno : ∀ e, r.log = q.log ++ [e] → (∀ h m, e ≠ .call h m) ∧ ∀ r, e ≠ .ret r := fun e he => hn e (by
      rw [he] at hx
      rw [← List.append_cancel_left hx]
      simp)
    cases hm with
    | call header m hc => exact absurd rfl ((hno _ rfl).1 _ _)
    | @ctl k₁ k' t hc hr hst =>
      rw [hc] at h1
      cases h1
      obtain ⟨g', ⟨hg, _⟩, hw⟩ := h2.step trivial hr hst
      refine ⟨k', g', rfl, hw, fun l hl => ?_⟩
      rw [hg] at hl
      rcases List.mem_cons.1 hl with rfl | hl
      · exact hq.now
      · exact h3 l hl
    | ret hc => exact absurd rfl ((hno _ rfl).2 _)
    | threw hc => exact absurd rfl ((hno _ rfl).2 _)
    | begins m hc => exact ⟨k, g, h1, h2, h3⟩
    | ev hc hr hs => exact ⟨k, g, h1, h2, h3⟩
    | ends hc => exact ⟨k, g, h1, h2, h3⟩
    | fails hc => exact ⟨k, g, h1, h2, h3⟩
    | world u files replies acks => exact ⟨k, g, h1, h2, h3⟩

/-- From a moment at which `P` holds and while only harmless things happen, debugInfo reports a set of which `P` holds. -/
theorem reported (hd : Extends d) {P : List Int → Prop} {p q : Pair σ} (h : Holds P p) (hm : Moves d p q) {c e : List Mark}
    {header m seq answer : Json} (hl : q.log = p.log ++ (c ++ .call header m :: (e ++ [.ret (.ok answer)])))
    (hq : DebugInfo m seq) (hs : ∀ x ∈ c ++ e, Harmless d P x) (hn : NoRequest e) : ∃ l, ReportsThreads answer l ∧ P l := by
  obtain ⟨m₁, m₂, h1, h2, h3, h4, h5, h6⟩ := moment hm hl
  have hH := holds_moves h h1 h4 fun x hx => hs x (by simp [hx])
  have hd' : ¬ Disconnects m := fun hc => by
    have := at_unique hc hq.command
    simp only [Json.str.injEq] at this
    exact absurd this (by decide +kernel)
  have hH' := holds_move hH h2 fun x hx => by
    rw [h5] at hx
    cases List.append_cancel_left hx
    exact (acts_request_other hd header m hd').mono fun s s' hst hP => by
      unfold SameThreads at hst
      rw [hst]; exact hP
  have hA : Asking P m₂ := by
    cases h2 with
    | call header' m' hc =>
      have := List.append_cancel_left h5
      cases this
      exact ⟨_, [], rfl, report_wp hd hq, by simp⟩
    | ctl => exact absurd (congrArg List.length h5) (by simp)
    | ret => have := List.append_cancel_left h5; cases this
    | threw => have := List.append_cancel_left h5; cases this
    | begins => have := List.append_cancel_left h5; cases this
    | ev => exact absurd (congrArg List.length h5) (by simp)
    | ends => have := List.append_cancel_left h5; cases this
    | fails => have := List.append_cancel_left h5; cases this
    | world => exact absurd (congrArg List.length h5) (by simp)
  obtain ⟨m₃, m₄, g1, g2, g3, g4, g5, g6⟩ := moment h3 h6
  obtain ⟨k, g, a1, a2, a3⟩ := asking_moves hA hH' g1 g4 (fun x hx => hs x (by simp [hx])) hn
  cases g2 with
  | ret hc =>
    have := List.append_cancel_left g5
    cases this
    rw [hc] at a1
    cases a1
    obtain ⟨l, hl, hr⟩ := a2 _ rfl
    exact ⟨l, hr, a3 l hl⟩
  | call => have := List.append_cancel_left g5; cases this
  | ctl => exact absurd (congrArg List.length g5) (by simp)
  | threw => have := List.append_cancel_left g5; cases this
  | begins => have := List.append_cancel_left g5; cases this
  | ev => exact absurd (congrArg List.length g5) (by simp)
  | ends => have := List.append_cancel_left g5; cases this
  | fails => have := List.append_cancel_left g5; cases this
  | world => exact absurd (congrArg List.length g5) (by simp)

/-! ## What is harmless -/

theorem mem_filter_ne {t x : Int} {l : List Int} : x ∈ (l.filter fun y => decide (y ≠ t)) ↔ x ∈ l ∧ x ≠ t := by simp

theorem harmless_absent (hd : Extends d) {t : Int} {l : List Mark} (hw : Without "stopped" t l) {x : Mark} (hx : x ∈ l) :
    Harmless d (t ∉ ·) x := by
  cases x with
  | call h m =>
    exact (acts_request hd h m).mono fun s s' hst hP => by
      rcases hst with hst | hst <;> rw [hst]
      · exact hP
      · simp
  | begins m =>
    refine (acts_event hd m).mono fun s s' hst hP => ?_
    rcases hst with hst | ⟨t', ha, hst⟩ | ⟨t', ha, hst⟩ <;> rw [hst]
    · exact hP
    · rw [mem_insertThread]
      rintro (rfl | h)
      · exact hw m hx ha
      · exact hP h
    · rw [mem_filter_ne]
      exact fun h => hP h.1
  | ret r => trivial
  | ends r => trivial

theorem harmless_present (hd : Extends d) {t : Int} {l : List Mark} (hw : Without "continued" t l) (hc : Connected l) {x : Mark}
    (hx : x ∈ l) : Harmless d (t ∈ ·) x := by
  cases x with
  | call h m =>
    exact (acts_request_other hd h m (hc h m hx)).mono fun s s' hst hP => by
      unfold SameThreads at hst
      rw [hst]; exact hP
  | begins m =>
    refine (acts_event hd m).mono fun s s' hst hP => ?_
    rcases hst with hst | ⟨t', ha, hst⟩ | ⟨t', ha, hst⟩ <;> rw [hst]
    · exact hP
    · rw [mem_insertThread]
      exact .inr hP
    · rw [mem_filter_ne]
      exact ⟨hP, fun e => hw m hx (e ▸ ha)⟩
  | ret r => trivial
  | ends r => trivial

end

end Xeus.Dbg
