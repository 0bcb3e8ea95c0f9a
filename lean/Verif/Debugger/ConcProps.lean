import Verif.Debugger.ConcInv
import Verif.Debugger.ConcSample

/-!
# The debugger used by two threads: property theorems

* C97: the stopped threads, when the adapter's events are handled while requests are processed.
-/

namespace Xeus.Dbg

open Xeus K Spec

section
variable {σ : Type} {d : Debugger σ}

/-! ## C97 -/

/-- **C97.** A thread about which a `stopped` event was handled is listed by every debugInfo request that begins later, unless a
`continued` event about it or a disconnect request has begun since.  In the meantime the threads may have done anything else,
at the same time. -/
theorem C97_stopped (hd : Extends d) {st : σ} {files : Str → Option Str} {p : Pair σ} (hm : Moves d (Pair.initial st files) p)
    {a b c e : List Mark} {m header q seq answer : Json} {t : Int}
    (hl : p.log = a ++ .begins m :: b ++ .ends (.ok ()) :: c ++ .call header q :: e ++ [.ret (.ok answer)])
    (hb : NoEvent b) (he : NoRequest e) (ht : About "stopped" m t) (hq : DebugInfo q seq)
    (hc : Without "continued" t (c ++ e)) (hD : Connected (b ++ c)) (hn : NotDisconnecting a) :
    ∃ l, ReportsThreads answer l ∧ t ∈ l := by
  obtain ⟨m₁, m₂, h1, h2, h3, h4, h5, h6⟩ := moment hm (a := a ++ .begins m :: b) (e := .ends (.ok ()))
    (b := c ++ .call header q :: (e ++ [.ret (.ok answer)])) (by rw [hl]; simp [Pair.initial])
  have hev : ∀ x ∈ b, Harmless d (t ∈ ·) x := fun x hx => by
    refine harmless_present hd (l := b) (fun m' hm' => absurd rfl ((hb _ hm').1 m')) (fun h' m' hm' => hD h' m' (by simp [hm'])) hx
  obtain ⟨p', g1, g2, g3, g4⟩ := after_event (d := d) (P := (t ∈ ·)) (fun s => by simp [mem_insertThread]) (h1.tail h2)
    (handle_stopped hd ht) (b := b) (r := .ok ()) (a := a) (by rw [h5, h4]; simp)
    (fun p' hp' hl' k hk => ((InHand.initial st files).moves hd hp' |>.same (by rw [hl']; simpa [Pair.initial] using hn) hk).mono
      fun s s' hs hx => by unfold SameThreads at hs; rw [hs]; exact hx) hev hb
  exact reported hd g4 (g2.trans h3) (by rw [h6, g3]) hq (fun x hx => harmless_present hd hc
    (fun h' m' hm' => by
      rcases List.mem_append.1 hm' with h | h
      · exact hD h' m' (by simp [h])
      · exact absurd rfl ((he _ h).1 h' m')) hx) he

/-- **C97.** A thread about which a `continued` event was handled is not listed, unless a `stopped` event about it has begun since. -/
theorem C97_continued (hd : Extends d) {st : σ} {files : Str → Option Str} {p : Pair σ} (hm : Moves d (Pair.initial st files) p)
    {a b c e : List Mark} {m header q seq answer : Json} {t : Int}
    (hl : p.log = a ++ .begins m :: b ++ .ends (.ok ()) :: c ++ .call header q :: e ++ [.ret (.ok answer)])
    (hb : NoEvent b) (he : NoRequest e) (ht : About "continued" m t) (hq : DebugInfo q seq)
    (hc : Without "stopped" t (c ++ e)) : ∃ l, ReportsThreads answer l ∧ t ∉ l := by
  obtain ⟨m₁, m₂, h1, h2, h3, h4, h5, h6⟩ := moment hm (a := a ++ .begins m :: b) (e := .ends (.ok ()))
    (b := c ++ .call header q :: (e ++ [.ret (.ok answer)])) (by rw [hl]; simp [Pair.initial])
  have hev : ∀ x ∈ b, Harmless d (t ∉ ·) x := fun x hx =>
    harmless_absent hd (l := b) (fun m' hm' => absurd rfl ((hb _ hm').1 m')) hx
  obtain ⟨p', g1, g2, g3, g4⟩ := after_event (d := d) (P := (t ∉ ·)) (fun s => by simp) (h1.tail h2)
    (handle_continued hd ht) (b := b) (r := .ok ()) (a := a) (by rw [h5, h4]; simp)
    (fun p' hp' hl' k hk => (((InHand.initial st files).moves hd hp').ctl k hk).1.mono
      fun s s' hs hx => by rcases hs with hs | hs <;> rw [hs] <;> first | exact hx | simp) hev hb
  exact reported hd g4 (g2.trans h3) (by rw [h6, g3]) hq (fun x hx => harmless_absent hd hc hx) he

/-- **C97.** After a disconnect request has been answered, a thread is not listed unless a `stopped` event about it begins after
the request or was in hand when it began. -/
theorem C97_disconnected (hd : Extends d) {st : σ} {files : Str → Option Str} {p : Pair σ} (hm : Moves d (Pair.initial st files) p)
    {a b c e : List Mark} {header m reply header' q seq answer : Json} {t : Int}
    (hl : p.log = a ++ .call header m :: b ++ .ret (.ok reply) :: c ++ .call header' q :: e ++ [.ret (.ok answer)])
    (hb : NoRequest b) (he : NoRequest e) (hD : Disconnects m) (hq : DebugInfo q seq)
    (hn : NotInHand "stopped" t a) (hc : Without "stopped" t (b ++ c ++ e)) : ∃ l, ReportsThreads answer l ∧ t ∉ l := by
  obtain ⟨m₁, m₂, h1, h2, h3, h4, h5, h6⟩ := moment hm (a := a ++ .call header m :: b) (e := .ret (.ok reply))
    (b := c ++ .call header' q :: (e ++ [.ret (.ok answer)])) (by rw [hl]; simp [Pair.initial])
  obtain ⟨p', g1, g2, g3, g4⟩ := after_disconnect hd (t := t) (h1.tail h2) (answer := reply) (b := b) (a := a) (header := header) hD
    (by rw [h5, h4]; simp)
    (fun p' hp' hl' k hk => ((InHand.initial st files).moves hd hp').absent (by rw [hl']; simpa [Pair.initial] using hn) hk)
    (fun x hx => harmless_absent hd hc (by simp [hx])) hb
  exact reported hd g4 (g2.trans h3) (by rw [h6, g3]) hq (fun x hx => harmless_absent hd hc (by
    rcases List.mem_append.1 hx with h | h <;> simp [h])) he

/-- **C97.** Only threads about which a `stopped` event began are listed, each once and in increasing order. -/
theorem C97_listed (hd : Extends d) {st : σ} {files : Str → Option Str} {p : Pair σ} (hm : Moves d (Pair.initial st files) p)
    {c e : List Mark} {header q seq answer : Json} (hl : p.log = c ++ .call header q :: e ++ [.ret (.ok answer)])
    (he : NoRequest e) (hq : DebugInfo q seq) :
    ∃ l, ReportsThreads answer l ∧ l.Pairwise (· < ·) ∧ ∀ t ∈ l, ∃ m, .begins m ∈ c ++ e ∧ About "stopped" m t := by
  have hI : ∀ P : List Int → Prop, P [] → Holds P (Pair.initial st files) := fun P h => ⟨h, by simp [Pair.initial], by simp [Pair.initial]⟩
  have hl' : p.log = (Pair.initial st files).log ++ (c ++ .call header q :: (e ++ [.ret (.ok answer)])) := by
    rw [hl]; simp [Pair.initial]
  obtain ⟨l, h1, h2, h3⟩ := reported hd
    (P := fun l => l.Pairwise (· < ·) ∧ ∀ t ∈ l, ∃ m, .begins m ∈ c ++ e ∧ About "stopped" m t) (hI _ (by simp)) hm hl' hq
    (fun x hx => by
      cases x with
      | call h m =>
        exact (acts_request hd h m).mono fun s s' hst hP => by
          rcases hst with hst | hst <;> rw [hst]
          · exact hP
          · simp
      | begins m =>
        refine (acts_event hd m).mono fun s s' hst hP => ?_
        rcases hst with hst | ⟨t', ha, hst⟩ | ⟨t', ha, hst⟩ <;> rw [hst]
        · exact hP
        · refine ⟨sorted_insertThread hP.1, fun t ht => ?_⟩
          rcases mem_insertThread.1 ht with rfl | ht
          · exact ⟨m, hx, ha⟩
          · exact hP.2 t ht
        · exact ⟨hP.1.filter _, fun t ht => hP.2 t (mem_filter_ne.1 ht).1⟩
      | ret r => trivial
      | ends r => trivial) he
  exact ⟨l, h1, h2, h3⟩

end

section Examples
open Sample

theorem about_five {name : String} : About name (event name 5) 5 :=
  ⟨.int 5, .member rfl .here, .member rfl (.member rfl .here), by decide +kernel⟩

theorem about_name {name name' : String} {t t' : Int} (h : About name (event name' t') t) : lit name = lit name' := by
  obtain ⟨v, h1, -, -⟩ := h
  exact Json.str.inj (at_unique h1 (.member rfl .here : At (event name' t') [lit "event"] (.str (lit name'))))

theorem about_thread {name name' : String} {t t' : Int} (h : About name (event name' t') t) : (Json.int t').getInt = .ok t := by
  obtain ⟨v, -, h2, h3⟩ := h
  rw [← at_unique h2 (.member rfl (.member rfl .here) : At (event name' t') [lit "body", lit "threadId"] (.int t'))]
  exact h3

def infoRequest : Json := request "debugInfo" .null
def byeRequest : Json := request "disconnect" .null

theorem infoRequest_is : DebugInfo infoRequest (.int 12) := ⟨.member (by decide +kernel) .here, .member (by decide +kernel) .here⟩
theorem byeRequest_is : Disconnects byeRequest := .member (by decide +kernel) .here
theorem infoRequest_not : ¬ Disconnects infoRequest := fun h =>
  absurd (Json.str.inj (at_unique h infoRequest_is.command)) (by decide +kernel)

/-- Thread 5 stops while a request is processed, thread 7 while the next one is. -/
def overlap : List Turn :=
  [.call header infoRequest, .begins (event "stopped" 5), .ctl, .ev, .ctl, .ends, .ctl, .ret,
    .begins (event "stopped" 7), .call header infoRequest, .ctl, .ctl, .ctl, .ev, .ends, .ret]

theorem overlap_runs : ∃ p, Moves debugger fresh p ∧ p.log =
    [.call header infoRequest, .begins (event "stopped" 5), .ends (.ok ()), .ret (.ok (infoReply [5])),
      .begins (event "stopped" 7), .call header infoRequest, .ends (.ok ()), .ret (.ok (infoReply [5]))] :=
  ⟨_, runs debugger (l := overlap) (by decide +kernel), by decide +kernel⟩

example : ∃ l, ReportsThreads (infoReply [5]) l ∧ (5 : Int) ∈ l := by
  obtain ⟨p, h, hl⟩ := overlap_runs
  refine C97_stopped debugger_extends h (a := [.call header infoRequest]) (b := [])
    (c := [.ret (.ok (infoReply [5])), .begins (event "stopped" 7)]) (e := [.ends (.ok ())]) hl ?_ ?_ about_five infoRequest_is ?_ ?_ ?_
  · intro x hx; cases hx
  · intro x hx; cases List.mem_singleton.1 hx; exact ⟨by simp, by simp⟩
  · intro m hm ha
    simp only [List.mem_append, List.mem_cons, reduceCtorEq, Mark.begins.injEq, List.not_mem_nil, or_false, false_or] at hm
    subst hm
    exact absurd (about_name ha) (by decide +kernel)
  · intro h' m' hm'
    simp at hm'
  · intro a b h' m' hab hD
    cases a with
    | nil => cases hab; exact absurd hD infoRequest_not
    | cons x xs => simp at hab

example : ∃ l, ReportsThreads (infoReply [5]) l ∧ l.Pairwise (· < ·) ∧
    ∀ t ∈ l, ∃ m, .begins m ∈ [.call header infoRequest, .begins (event "stopped" 5), .ends (.ok ()), .ret (.ok (infoReply [5])),
      .begins (event "stopped" 7)] ++ [Mark.ends (.ok ())] ∧ About "stopped" m t := by
  obtain ⟨p, h, hl⟩ := overlap_runs
  refine C97_listed debugger_extends h hl ?_ infoRequest_is
  intro x hx; cases List.mem_singleton.1 hx; exact ⟨by simp, by simp⟩

/-- Thread 5 stops and goes on, while the frontend disconnects. -/
def goesOn : List Turn :=
  [.begins (event "stopped" 5), .ev, .ends, .call header byeRequest, .ctl, .begins (event "continued" 5), .ctl, .ctl, .ev, .ctl, .ends, .ctl,
    .ret, .call header infoRequest, .ctl, .ctl, .ctl, .ret]

example : ∃ p, Moves debugger fresh p ∧ ∃ answer, (∃ a b c e, p.log = a ++ .begins (event "continued" 5) :: b ++ .ends (.ok ()) :: c ++
    .call header infoRequest :: e ++ [.ret (.ok answer)]) ∧ ∃ l, ReportsThreads answer l ∧ (5 : Int) ∉ l := by
  have hl : ((turns debugger fresh goesOn).get (by decide +kernel)).log =
      [.begins (event "stopped" 5), .ends (.ok ()), .call header byeRequest] ++ .begins (event "continued" 5) :: [] ++ .ends (.ok ()) ::
        [.ret (.ok (.obj []))] ++ .call header infoRequest :: [] ++ [.ret (.ok (infoReply []))] := by decide +kernel
  have hm := runs debugger (l := goesOn) (p := fresh) (by decide +kernel)
  refine ⟨_, hm, _, ⟨_, _, _, _, hl⟩, ?_⟩
  refine C97_continued debugger_extends hm hl ?_ ?_ about_five infoRequest_is ?_
  · intro x hx; cases hx
  · intro x hx; cases hx
  · intro m hm
    simp at hm

/-- Thread 5 stops, the frontend disconnects while thread 7 stops. -/
def disconnects : List Turn :=
  [.begins (event "stopped" 5), .ev, .ends, .call header byeRequest, .ctl, .ctl, .begins (event "stopped" 7), .ctl, .ev, .ctl, .ctl, .ends,
    .ret, .call header infoRequest, .ctl, .ctl, .ctl, .ret]

example : ∃ p, Moves debugger fresh p ∧ ∃ answer, (∃ a b c e, p.log = a ++ .call header byeRequest :: b ++ .ret (.ok (.obj [])) :: c ++
    .call header infoRequest :: e ++ [.ret (.ok answer)]) ∧ ∃ l, ReportsThreads answer l ∧ (5 : Int) ∉ l := by
  have hl : ((turns debugger fresh disconnects).get (by decide +kernel)).log =
      [.begins (event "stopped" 5), .ends (.ok ())] ++ .call header byeRequest :: [.begins (event "stopped" 7), .ends (.ok ())] ++
        .ret (.ok (.obj [])) :: [] ++ .call header infoRequest :: [] ++ [.ret (.ok (infoReply []))] := by decide +kernel
  have hm := runs debugger (l := disconnects) (p := fresh) (by decide +kernel)
  refine ⟨_, hm, _, ⟨_, _, _, _, hl⟩, ?_⟩
  refine C97_disconnected debugger_extends hm hl ?_ ?_ byeRequest_is infoRequest_is ?_ ?_
  · intro x hx
    simp only [List.mem_cons, List.not_mem_nil, or_false] at hx
    rcases hx with rfl | rfl <;> exact ⟨by simp, by simp⟩
  · intro x hx; cases hx
  · intro a b m hab ha
    cases a with
    | nil => cases hab; exact ⟨.ok (), by simp⟩
    | cons x xs =>
      cases xs with
      | nil => simp at hab
      | cons y ys => simp at hab
  · intro m hm ha
    simp only [List.mem_append, List.mem_cons, reduceCtorEq, Mark.begins.injEq, List.not_mem_nil, or_false] at hm
    subst hm
    exact absurd (about_thread ha) (by decide +kernel)

end Examples

/-! ## What the lock does not protect -/

section Witnesses
open Sample

/-- The next access of the program changes the set of stopped threads. -/
def Writes {σ α : Type} (p : Option (K (State σ) α)) (s : State σ) : Prop :=
  ∃ q q' t, p = some q ∧ q.step s = some (q', t) ∧ t.threads ≠ s.threads

/-- Disconnecting while a stopped event about another thread is handled. -/
def racing : List Turn :=
  [.begins (event "stopped" 5), .ev, .ends, .call header byeRequest, .begins (event "stopped" 7), .ctl, .ctl, .ctl]

theorem racing_runs : (turns debugger fresh racing).isSome = true := by decide +kernel

/-- **C97, finding.** The control thread can be about to empty the set, without holding the lock, while the client's thread is about
to insert a thread in it. -/
theorem C97_race_witness : ∃ p, Moves debugger fresh p ∧ Writes p.ctl p.s ∧ Writes p.ev p.s := by
  have hc : ∃ q q' t, ((turns debugger fresh racing).get racing_runs).ctl = some q ∧
      q.step ((turns debugger fresh racing).get racing_runs).s = some (q', t) ∧ t.threads = [] := ⟨_, _, _, rfl, rfl, rfl⟩
  have he : ∃ q q' t, ((turns debugger fresh racing).get racing_runs).ev = some q ∧
      q.step ((turns debugger fresh racing).get racing_runs).s = some (q', t) ∧ t.threads = [5, 7] := ⟨_, _, _, rfl, rfl, by decide +kernel⟩
  have hs : ((turns debugger fresh racing).get racing_runs).s.threads = [5] := by decide +kernel
  refine ⟨_, runs debugger racing_runs, ?_, ?_⟩
  · obtain ⟨q, q', t, h1, h2, h3⟩ := hc
    exact ⟨q, q', t, h1, h2, by rw [h3, hs]; simp⟩
  · obtain ⟨q, q', t, h1, h2, h3⟩ := he
    exact ⟨q, q', t, h1, h2, by rw [h3, hs]; decide⟩

/-- An event in hand when the disconnect request begins. -/
def stale : List Turn :=
  [.begins (event "stopped" 5), .call header byeRequest, .ctl, .ctl, .ctl, .ctl, .ctl, .ret, .ev, .ends, .call header infoRequest, .ctl, .ctl,
    .ctl, .ret]

/-- **C97, finding.** A thread reported before the disconnection can be listed after it. -/
theorem C97_stale_witness : ∃ p, Moves debugger fresh p ∧
    p.log = [.begins (event "stopped" 5), .call header byeRequest, .ret (.ok (.obj [])), .ends (.ok ()), .call header infoRequest,
      .ret (.ok (infoReply [5]))] ∧ ReportsThreads (infoReply [5]) [5] :=
  ⟨_, runs debugger (l := stale) (by decide +kernel), by decide +kernel, 
    .member (v := infoBody ⟨7, lit "/tmp/", lit ".py", true, [lit "a"]⟩ false [] [5]) (by decide +kernel)
      (.member (by decide +kernel) .here)⟩

end Witnesses

end Xeus.Dbg
