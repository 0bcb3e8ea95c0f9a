import Verif.Debugger.Spec

/-!
# The debugger: what each handler may touch
-/

namespace Xeus.Dbg

open Xeus Spec K

variable {σ : Type} {d : Debugger σ}

/-! ## Documents -/

theorem at_nil {j v : Json} : At j [] v ↔ v = j :=
  ⟨fun h => by cases h; rfl, fun h => h ▸ .here⟩

theorem at_cons {j v : Json} {k : Str} {ks : List Str} : At j (k :: ks) v ↔ ∃ w, j.find? k = some w ∧ At w ks v :=
  ⟨fun h => by cases h with | member h₁ h₂ => exact ⟨_, h₁, h₂⟩, fun ⟨_, h₁, h₂⟩ => .member h₁ h₂⟩

theorem at_unique {j v w : Json} {ks : List Str} (h : At j ks v) (h' : At j ks w) : v = w := by
  induction h with
  | here => cases h'; rfl
  | member h₁ _ ih => cases h' with | member h₁' h₂' => cases h₁.symm.trans h₁'; exact ih h₂'

theorem cidx_ok {j v : Json} {k : Str} : j.cidx k = .ok v ↔ j.find? k = some v := by
  cases j <;> simp only [Json.cidx, Json.find?] <;> try simp
  rename_i kvs
  cases Json.lookup k kvs <;> simp

theorem cidx_of_find {j v : Json} {k : Str} (h : j.find? k = some v) : j.cidx k = .ok v := cidx_ok.2 h

theorem cidx_exc {j v : Json} {k k' : Str} {e : Exc} (h : j.find? k' = some v) : j.cidx k ≠ .exc e := by
  cases j <;> simp only [Json.find?, Json.cidx] at h ⊢ <;> try (simp at h)
  rename_i kvs
  cases Json.lookup k kvs <;> simp

theorem getStr_ok {j : Json} {s : Str} : j.getStr = .ok s ↔ j = .str s := by
  cases j <;> simp [Json.getStr]

theorem sourcePath_ok {m : Json} {src : Str} :
    sourcePath m = .ok src ↔ At m [lit "arguments", lit "source", lit "path"] (.str src) := by
  simp only [sourcePath, Res.bind_eq_ok, cidx_ok, getStr_ok, at_cons, at_nil]
  constructor
  · rintro ⟨a, ha, b, hb, c, hc, rfl⟩; exact ⟨a, ha, b, hb, _, hc, rfl⟩
  · rintro ⟨a, ha, b, hb, c, hc, rfl⟩; exact ⟨a, ha, b, hb, _, hc, rfl⟩

theorem listed_elements (v : Json) : Listed v (elements v) := by
  cases v <;> constructor

theorem listed_unique {v : Json} {l : List Json} (h : Listed v l) : l = elements v := by
  cases h <;> rfl

/-! ## Footprints -/

/-- What may change. -/
structure Foot where
  bps : Bool
  thr : Bool
  net : Bool

/-- Files that can be read are never changed. -/
def Grow (d : Debugger σ) (s s' : State σ) : Prop :=
  ∀ p c, d.readable p = true → s.files p = some c → s'.files p = some c

/-- A change within a footprint. -/
structure Eff (d : Debugger σ) (F : Foot) (s s' : State σ) : Prop where
  started : s'.started = s.started
  bps : F.bps = false → s'.breakpoints = s.breakpoints
  thr : F.thr = false → s'.threads = s.threads
  quiet : F.net = false → s'.out = s.out ∧ s'.replies = s.replies ∧ s'.acks = s.acks
  out : ∃ ext, s'.out = s.out ++ ext ∧ ∀ e ∈ ext, traffic e = true
  files : Grow d s s'

theorem eff_pre (d : Debugger σ) (F : Foot) : Pre (Eff d F) where
  refl s := ⟨rfl, fun _ => rfl, fun _ => rfl, fun _ => ⟨rfl, rfl, rfl⟩, ⟨[], by simp, by simp⟩, fun _ _ _ h => h⟩
  trans {a b c} h h' := by
    obtain ⟨e₁, h₁, h₁'⟩ := h.out
    obtain ⟨e₂, h₂, h₂'⟩ := h'.out
    exact ⟨h'.started.trans h.started, fun f => (h'.bps f).trans (h.bps f), fun f => (h'.thr f).trans (h.thr f),
      fun f => ⟨(h'.quiet f).1.trans (h.quiet f).1, (h'.quiet f).2.1.trans (h.quiet f).2.1,
        (h'.quiet f).2.2.trans (h.quiet f).2.2⟩,
      ⟨e₁ ++ e₂, by rw [h₂, h₁, List.append_assoc], fun e he => by
        rcases List.mem_append.1 he with he | he
        · exact h₁' e he
        · exact h₂' e he⟩,
      fun p c hr hf => h'.files p c hr (h.files p c hr hf)⟩

/-- Inclusion of footprints. -/
def Foot.le (F G : Foot) : Prop :=
  (G.bps = false → F.bps = false) ∧ (G.thr = false → F.thr = false) ∧ (G.net = false → F.net = false)

theorem Eff.mono {F G : Foot} (h : F.le G) {s s' : State σ} (e : Eff d F s s') : Eff d G s s' :=
  ⟨e.started, fun f => e.bps (h.1 f), fun f => e.thr (h.2.1 f), fun f => e.quiet (h.2.2 f), e.out, e.files⟩

theorem keeps_mono {α : Type} {F G : Foot} (h : F.le G) {p : K (State σ) α} (e : Keeps (Eff d F) p) : Keeps (Eff d G) p :=
  fun s => (e s).mono h

theorem eff_same {F : Foot} {s s' : State σ} (h₁ : s'.started = s.started) (h₂ : s'.breakpoints = s.breakpoints)
    (h₃ : s'.threads = s.threads) (h₄ : s'.files = s.files) (h₅ : s'.replies = s.replies) (h₆ : s'.acks = s.acks)
    (h₇ : s'.out = s.out) : Eff d F s s' :=
  ⟨h₁, fun _ => h₂, fun _ => h₃, fun _ => ⟨h₇, h₅, h₆⟩, ⟨[], by simp [h₇], by simp⟩, fun p c _ hf => by rw [h₄]; exact hf⟩

theorem eff_emit {F : Foot} (hF : F.net = true) {e : Event} (he : traffic e = true) : Keeps (Eff d F) (emit (σ := σ) e) :=
  Keeps.modify fun s => ⟨rfl, fun _ => rfl, fun _ => rfl, fun f => by simp [hF] at f,
    ⟨[e], rfl, by simpa using he⟩, fun _ _ _ h => h⟩

theorem eff_recvReply {F : Foot} (hF : F.net = true) : Keeps (Eff d F) (recvReply (σ := σ)) := by
  refine Keeps.lift fun s => ?_
  cases h : s.replies with
  | nil => exact (eff_pre d F).refl s
  | cons r rs =>
    exact ⟨rfl, fun _ => rfl, fun _ => rfl, fun f => by simp [hF] at f, ⟨[], by simp, by simp⟩, fun _ _ _ h => h⟩

theorem eff_recvAck {F : Foot} (hF : F.net = true) : Keeps (Eff d F) (recvAck (σ := σ)) := by
  refine Keeps.lift fun s => ?_
  cases h : s.acks with
  | nil => exact (eff_pre d F).refl s
  | cons r rs =>
    exact ⟨rfl, fun _ => rfl, fun _ => rfl, fun f => by simp [hF] at f, ⟨[], by simp, by simp⟩, fun _ _ _ h => h⟩

theorem eff_forward {F : Foot} (hF : F.net = true) (m : Json) : Keeps (Eff d F) (forwardMessage d m) := by
  have hp := eff_pre d F
  refine Keeps.bind hp (Keeps.ofRes hp _) fun _ => ?_
  refine Keeps.bind hp (eff_emit hF rfl) fun _ => ?_
  exact Keeps.bind hp (eff_recvReply hF) fun _ => Keeps.ofRes hp _

theorem eff_debugInfo (F : Foot) (m : Json) : Keeps (Eff d F) (debugInfo d m) := by
  have hp := eff_pre d F
  refine Keeps.bind hp (Keeps.read hp _) fun _ => ?_
  refine Keeps.bind hp (Keeps.readR hp _) fun _ => ?_
  refine Keeps.bind hp (Keeps.ofRes hp _) fun _ => ?_
  exact Keeps.bind hp (Keeps.ofRes hp _) fun _ => Keeps.read hp _

theorem eff_dump (F : Foot) (path code : Str) (s : State σ) : Eff d F s (dump d path code s) := by
  unfold dump
  split
  · exact (eff_pre d F).refl s
  · rename_i h
    split
    · refine ⟨rfl, fun _ => rfl, fun _ => rfl, fun _ => ⟨rfl, rfl, rfl⟩, ⟨[], by simp, by simp⟩, fun p c hr hf => ?_⟩
      show (if p = path then some code else s.files p) = some c
      split
      · rename_i hp
        subst hp
        simp [hr, hf] at h
      · exact hf
    · exact (eff_pre d F).refl s

theorem eff_dumpCell (F : Foot) (m : Json) : Keeps (Eff d F) (dumpCell d m) := by
  have hp := eff_pre d F
  refine Keeps.bind hp (Keeps.ofRes hp _) fun _ => ?_
  refine Keeps.bind hp (Keeps.readR hp _) fun _ => ?_
  refine Keeps.bind hp (Keeps.modify fun s => eff_dump F _ _ s) fun _ => ?_
  refine Keeps.bind hp (Keeps.ofRes hp _) fun _ => ?_
  exact Keeps.bind hp (Keeps.ofRes hp _) fun _ => Keeps.pure hp _

theorem eff_modify_bps {F : Foot} (hF : F.bps = true) (f : State σ → List (Str × Json)) :
    Keeps (Eff d F) (K.modify fun s : State σ => { s with breakpoints := f s }) :=
  Keeps.modify fun s => ⟨rfl, fun h => by simp [hF] at h, fun _ => rfl, fun _ => ⟨rfl, rfl, rfl⟩, ⟨[], by simp, by simp⟩,
    fun _ _ _ h => h⟩

theorem eff_modify_thr {F : Foot} (hF : F.thr = true) (f : State σ → List Int) :
    Keeps (Eff d F) (K.modify fun s : State σ => { s with threads := f s }) :=
  Keeps.modify fun s => ⟨rfl, fun _ => rfl, fun h => by simp [hF] at h, fun _ => ⟨rfl, rfl, rfl⟩, ⟨[], by simp, by simp⟩,
    fun _ _ _ h => h⟩

theorem eff_setBreakpoints {F : Foot} (hF : F.net = true) (hB : F.bps = true) (m : Json) :
    Keeps (Eff d F) (setBreakpoints d m) := by
  have hp := eff_pre d F
  refine Keeps.bind hp (Keeps.ofRes hp _) fun _ => ?_
  refine Keeps.bind hp (eff_modify_bps hB fun s => _) fun _ => ?_
  refine Keeps.bind hp (Keeps.ofRes hp _) fun _ => ?_
  refine Keeps.bind hp (Keeps.ofRes hp _) fun _ => ?_
  exact Keeps.bind hp (eff_modify_bps hB fun s => _) fun _ => eff_forward hF m

theorem eff_source (F : Foot) (m : Json) : Keeps (Eff d F) (source d m) := by
  have hp := eff_pre d F
  refine Keeps.bind hp (Keeps.ofRes hp _) fun _ => ?_
  refine Keeps.bind hp (Keeps.read hp _) fun _ => ?_
  refine Keeps.bind hp (Keeps.ofRes hp _) fun _ => ?_
  exact Keeps.bind hp (Keeps.ofRes hp _) fun _ => Keeps.pure hp _

theorem eff_stackTrace {F : Foot} (hF : F.net = true) (m : Json) : Keeps (Eff d F) (stackTrace d m) := by
  have hp := eff_pre d F
  exact Keeps.bind hp (eff_forward hF m) fun _ => Keeps.ofRes hp _

theorem eff_variables {F : Foot} (hF : F.net = true) (m : Json) : Keeps (Eff d F) (variables d m) := by
  have hp := eff_pre d F
  refine Keeps.bind hp (eff_forward hF m) fun _ => ?_
  exact Keeps.bind hp (Keeps.ofRes hp _) fun _ => Keeps.ofRes hp _

theorem eff_continued {F : Foot} (hF : F.thr = true) (m : Json) : Keeps (Eff d F) (continuedEvent m) := by
  have hp := eff_pre d F
  exact Keeps.bind hp (Keeps.ofRes hp _) fun t => eff_modify_thr hF fun s => s.threads.filter fun x => decide (x ≠ t)

theorem eff_stopped {F : Foot} (hF : F.thr = true) (m : Json) : Keeps (Eff d F) (stoppedEvent m) := by
  have hp := eff_pre d F
  exact Keeps.bind hp (Keeps.ofRes hp _) fun t => eff_modify_thr hF fun s => insertThread t s.threads

/-- The operations whose footprint is included. -/
def Within (F : Foot) (o : Op) : Prop :=
  (F.net = false → Sends o = false) ∧ (F.bps = false ∨ F.thr = false → Records o = false)

theorem eff_sem {F : Foot} {o : Op} (h : Within F o) : Keeps (Eff d F) (sem d o) := by
  have hp := eff_pre d F
  have net (hs : Sends o = true) : F.net = true := by
    cases hn : F.net with
    | true => rfl
    | false => rw [h.1 hn] at hs; cases hs
  have rec_ (hs : Records o = true) : F.bps = true ∧ F.thr = true := by
    refine ⟨?_, ?_⟩
    · cases hn : F.bps with
      | true => rfl
      | false => rw [h.2 (.inl hn)] at hs; cases hs
    · cases hn : F.thr with
      | true => rfl
      | false => rw [h.2 (.inr hn)] at hs; cases hs
  cases o with
  | isStarted => exact Keeps.read hp _
  | stoppedThreads => exact Keeps.read hp _
  | forward m => exact Keeps.bind hp (eff_forward (net rfl) m) fun _ => Keeps.pure hp _
  | debugInfo m => exact Keeps.bind hp (eff_debugInfo F m) fun _ => Keeps.pure hp _
  | dumpCell m => exact Keeps.bind hp (eff_dumpCell F m) fun _ => Keeps.pure hp _
  | setBreakpoints m => exact Keeps.bind hp (eff_setBreakpoints (net rfl) (rec_ rfl).1 m) fun _ => Keeps.pure hp _
  | source m => exact Keeps.bind hp (eff_source F m) fun _ => Keeps.pure hp _
  | stackTrace m => exact Keeps.bind hp (eff_stackTrace (net rfl) m) fun _ => Keeps.pure hp _
  | variables m => exact Keeps.bind hp (eff_variables (net rfl) m) fun _ => Keeps.pure hp _
  | continuedEvent m => exact Keeps.bind hp (eff_continued (rec_ rfl).2 m) fun _ => Keeps.pure hp _
  | stoppedEvent m => exact Keeps.bind hp (eff_stopped (rec_ rfl).2 m) fun _ => Keeps.pure hp _

theorem eff_exec {α : Type} {F : Foot} (p : Prog σ Op α) (h : Calls (Within F) p) : Keeps (Eff d F) (exec d p) := by
  have hp := eff_pre d F
  induction p with
  | ret a => exact Keeps.pure hp _
  | throw e => exact Keeps.throw hp _
  | ub w => exact Keeps.ofRes hp _
  | hang => exact Keeps.ofRes hp _
  | get k ih => exact Keeps.bind hp (Keeps.read hp _) fun s => ih s (h s)
  | set st k ih =>
    exact Keeps.bind hp (Keeps.modify fun s => eff_same rfl rfl rfl rfl rfl rfl rfl) fun _ => ih h
  | call o k ih => exact Keeps.bind hp (eff_sem h.1).attempt fun r => ih r (h.2 r)

theorem Spec.Calls.imp {α : Type} {P Q : Op → Prop} (hPQ : ∀ o, P o → Q o) (p : Prog σ Op α) (h : Calls P p) : Calls Q p := by
  induction p with
  | ret a => trivial
  | throw e => trivial
  | ub w => trivial
  | hang => trivial
  | get k ih => exact fun s => ih s (h s)
  | set st k ih => exact ih h
  | call o k ih => exact ⟨hPQ o h.1, fun r => ih r (h.2 r)⟩

theorem Spec.Calls.any {α : Type} {P : Op → Prop} (hP : ∀ o, P o) (p : Prog σ Op α) : Calls P p := by
  induction p with
  | ret a => trivial
  | throw e => trivial
  | ub w => trivial
  | hang => trivial
  | get k ih => exact fun s => ih s
  | set st k ih => exact ih
  | call o k ih => exact ⟨hP o, fun r => ih r⟩

/-! ## Registrations -/

theorem requestHandler_mem {b : Bool} {name : Str} {h : Handler σ} (hh : d.requestHandler b name = some h) :
    (name, b, h) ∈ d.allRequests := by
  unfold Debugger.requestHandler at hh
  rcases Option.map_eq_some_iff.1 hh with ⟨⟨n, b', h'⟩, hf, rfl⟩
  have hm := List.mem_reverse.1 (List.mem_of_find?_eq_some hf)
  have hp := List.find?_some hf
  simp only [Bool.and_eq_true, decide_eq_true_eq, beq_iff_eq] at hp
  obtain ⟨rfl, rfl⟩ := hp
  exact hm

theorem eventHandler_mem {name : Str} {h : EvHandler σ} (hh : d.eventHandler name = some h) :
    (name, h) ∈ d.allEvents := by
  unfold Debugger.eventHandler at hh
  rcases Option.map_eq_some_iff.1 hh with ⟨⟨n, h'⟩, hf, rfl⟩
  have hm := List.mem_reverse.1 (List.mem_of_find?_eq_some hf)
  have hp := List.find?_some hf
  simp only [decide_eq_true_eq] at hp
  subst hp
  exact hm

/-- A command of the class is handled by its own handler if the kernel author does not replace it. -/
theorem requestHandler_builtin (hd : Extends d) {b : Bool} {name : Str} (hn : name ∈ builtinCommands) :
    d.requestHandler b name = ({ d with requests := [] } : Debugger σ).requestHandler b name := by
  have h0 : d.requests.reverse.find? (fun r => decide (r.1 = name) && r.2.1 == b) = none := by
    rw [List.find?_eq_none]
    rintro ⟨n, b', h⟩ hm
    have := (hd.requests n b' h (List.mem_reverse.1 hm)).1
    intro hc
    simp only [Bool.and_eq_true, decide_eq_true_eq] at hc
    exact this (hc.1 ▸ hn)
  unfold Debugger.requestHandler Debugger.allRequests
  rw [List.reverse_append, List.find?_append, h0, Option.none_or, List.append_nil]

theorem eventHandler_builtin (hd : Extends d) {name : Str} (hn : name ∈ builtinEvents) :
    d.eventHandler name = ({ d with events := [] } : Debugger σ).eventHandler name := by
  have h0 : d.events.reverse.find? (fun r => decide (r.1 = name)) = none := by
    rw [List.find?_eq_none]
    rintro ⟨n, h⟩ hm
    have := (hd.events n h (List.mem_reverse.1 hm)).1
    intro hc
    simp only [decide_eq_true_eq] at hc
    exact this (hc ▸ hn)
  unfold Debugger.eventHandler Debugger.allEvents
  rw [List.reverse_append, List.find?_append, h0, Option.none_or, List.append_nil]

/-- The footprint of a handler of the class. -/
def Handler.foot : Handler σ → Foot
  | .setBreakpoints => ⟨true, false, true⟩
  | .stackTrace | .variables => ⟨false, false, true⟩
  | .debugInfo | .dumpCell | .source => ⟨false, false, false⟩
  | .user _ => ⟨true, true, true⟩

theorem eff_handler (m : Json) (h : Handler σ) : Keeps (Eff d h.foot) (runHandler d m h) := by
  cases h with
  | debugInfo => exact eff_debugInfo _ m
  | dumpCell => exact eff_dumpCell _ m
  | setBreakpoints => exact eff_setBreakpoints rfl rfl m
  | source => exact eff_source _ m
  | stackTrace => exact eff_stackTrace rfl m
  | variables => exact eff_variables rfl m
  | user f => exact eff_exec _ (Spec.Calls.any (fun o => by unfold Within; simp [Handler.foot]) _)

/-- A handler other than that of setBreakpoints leaves the records alone. -/
theorem eff_handler_other (hd : Extends d) {b : Bool} {name : Str} {h : Handler σ} (hh : d.requestHandler b name = some h)
    (hn : name ≠ lit "setBreakpoints") (m : Json) : Keeps (Eff d ⟨false, false, true⟩) (runHandler d m h) := by
  have hm := requestHandler_mem hh
  rcases List.mem_append.1 hm with hm | hm
  · simp only [List.mem_cons, List.not_mem_nil, or_false, Prod.mk.injEq] at hm
    rcases hm with ⟨_, _, rfl⟩ | ⟨_, _, rfl⟩ | ⟨rfl, _, _⟩ | ⟨_, _, rfl⟩ | ⟨_, _, rfl⟩ | ⟨_, _, rfl⟩
    · exact keeps_mono (by unfold Foot.le; simp [Handler.foot]) (eff_handler (d := d) m .debugInfo)
    · exact keeps_mono (by unfold Foot.le; simp [Handler.foot]) (eff_handler (d := d) m .dumpCell)
    · exact absurd rfl hn
    · exact keeps_mono (by unfold Foot.le; simp [Handler.foot]) (eff_handler (d := d) m .source)
    · exact keeps_mono (by unfold Foot.le; simp [Handler.foot]) (eff_handler (d := d) m .stackTrace)
    · exact keeps_mono (by unfold Foot.le; simp [Handler.foot]) (eff_handler (d := d) m .variables)
  · obtain ⟨_, f, rfl, hf⟩ := hd.requests _ _ _ hm
    exact eff_exec _ (Spec.Calls.imp (fun o ho => ⟨fun h => by simp at h, fun _ => ho⟩) _ (hf m))

/-- A handler that does not require the debugger to be started sends nothing. -/
theorem eff_handler_plain (hd : Local d) {name : Str} {h : Handler σ} (hh : d.requestHandler false name = some h)
    (m : Json) : Keeps (Eff d ⟨true, true, false⟩) (runHandler d m h) := by
  have hm := requestHandler_mem hh
  rcases List.mem_append.1 hm with hm | hm
  · simp only [List.mem_cons, List.not_mem_nil, or_false, Prod.mk.injEq] at hm
    rcases hm with ⟨_, _, rfl⟩ | ⟨_, h, _⟩ | ⟨_, h, _⟩ | ⟨_, h, _⟩ | ⟨_, h, _⟩ | ⟨_, h, _⟩
    · exact keeps_mono (by unfold Foot.le; simp [Handler.foot]) (eff_handler (d := d) m .debugInfo)
    all_goals cases h
  · obtain ⟨f, rfl, hf⟩ := hd.requests _ _ hm
    exact eff_exec _ (Spec.Calls.imp (fun o ho => ⟨fun _ => ho, fun h => by simp at h⟩) _ (hf m))

theorem eff_event_local (hd : Local d) {name : Str} {h : EvHandler σ} (hh : d.eventHandler name = some h)
    (m : Json) : Keeps (Eff d ⟨true, true, false⟩) (runEvHandler d m h) := by
  have hm := eventHandler_mem hh
  rcases List.mem_append.1 hm with hm | hm
  · simp only [List.mem_cons, List.not_mem_nil, or_false, Prod.mk.injEq] at hm
    rcases hm with ⟨_, rfl⟩ | ⟨_, rfl⟩
    · exact eff_continued rfl m
    · exact eff_stopped rfl m
  · obtain ⟨f, rfl, hf⟩ := hd.events _ _ hm
    exact eff_exec _ (Spec.Calls.imp (fun o ho => ⟨fun _ => ho, fun h => by simp at h⟩) _ (hf m))

theorem eff_event_other (hd : Extends d) {name : Str} {h : EvHandler σ} (hh : d.eventHandler name = some h)
    (hn : name ∉ builtinEvents) (m : Json) : Keeps (Eff d ⟨false, false, true⟩) (runEvHandler d m h) := by
  have hm := eventHandler_mem hh
  rcases List.mem_append.1 hm with hm | hm
  · simp only [List.mem_cons, List.not_mem_nil, or_false, Prod.mk.injEq] at hm
    rcases hm with ⟨rfl, _⟩ | ⟨rfl, _⟩ <;> exact absurd (by simp [builtinEvents]) hn
  · obtain ⟨_, f, rfl, hf⟩ := hd.events _ _ hm
    exact eff_exec _ (Spec.Calls.imp (fun o ho => ⟨fun h => by simp at h, fun _ => ho⟩) _ (hf m))

/-- Every event handler, in general. -/
theorem eff_event (m : Json) (h : EvHandler σ) : Keeps (Eff d ⟨true, true, true⟩) (runEvHandler d m h) := by
  cases h with
  | continued => exact eff_continued rfl m
  | stopped => exact eff_stopped rfl m
  | user f => exact eff_exec _ (Spec.Calls.any (fun o => by unfold Within; simp) _)

theorem eff_sendHeader {F : Foot} (hF : F.net = true) (header : Json) : Keeps (Eff d F) (sendHeader d header) := by
  have hp := eff_pre d F
  refine Keeps.bind hp (Keeps.ofRes hp _) fun _ => ?_
  refine Keeps.bind hp (eff_emit hF rfl) fun _ => ?_
  exact Keeps.bind hp (eff_recvAck hF) fun _ => Keeps.pure hp _

end Xeus.Dbg
