import Verif.Debugger.ConcLemmas

/-!
# The debugger used by two threads: invariants

No property statements here.
-/

namespace Xeus.Dbg

open Xeus K Spec

section
variable {σ : Type} {d : Debugger σ}

/-- What is in hand has begun, and only changes what it may change. -/
structure InHand (p : Pair σ) : Prop where
  ctl : ∀ q, p.ctl = some q → Acts SameOrNone q ∧
    ∃ a h m b, p.log = a ++ .call h m :: b ∧ NoRequest b ∧ (¬ Disconnects m → Acts SameThreads q)
  ev : ∀ q, p.ev = some q → ∃ a m b, p.log = a ++ .begins m :: b ∧ NoEvent b ∧ Acts (Change m) q

theorem InHand.initial (st : σ) (files : Str → Option Str) : InHand (Pair.initial st files) :=
  ⟨fun q h => by simp [Pair.initial] at h, fun q h => by simp [Pair.initial] at h⟩

theorem noRequest_snoc {b : List Mark} {e : Mark} (h : NoRequest b) (h1 : ∀ h m, e ≠ .call h m) (h2 : ∀ r, e ≠ .ret r) :
    NoRequest (b ++ [e]) := by
  intro x hx
  rcases List.mem_append.1 hx with hx | hx
  · exact h x hx
  · cases List.mem_singleton.1 hx
    exact ⟨h1, h2⟩

theorem noEvent_snoc {b : List Mark} {e : Mark} (h : NoEvent b) (h1 : ∀ m, e ≠ .begins m) (h2 : ∀ r, e ≠ .ends r) :
    NoEvent (b ++ [e]) := by
  intro x hx
  rcases List.mem_append.1 hx with hx | hx
  · exact h x hx
  · cases List.mem_singleton.1 hx
    exact ⟨h1, h2⟩

theorem InHand.move (hd : Extends d) {p q : Pair σ} (h : InHand p) (hm : Move d p q) : InHand q := by
  have ev' : ∀ e : Mark, (∀ m, e ≠ .begins m) → (∀ r, e ≠ .ends r) → ∀ q, p.ev = some q →
      ∃ a m b, p.log ++ [e] = a ++ .begins m :: b ∧ NoEvent b ∧ Acts (Change m) q := fun e h1 h2 q hq => by
    obtain ⟨a, m, b, hl, hb, hc⟩ := h.ev q hq
    exact ⟨a, m, b ++ [e], by simp [hl], noEvent_snoc hb h1 h2, hc⟩
  have ctl' : ∀ e : Mark, (∀ h m, e ≠ .call h m) → (∀ r, e ≠ .ret r) → ∀ q, p.ctl = some q → Acts SameOrNone q ∧
      ∃ a h m b, p.log ++ [e] = a ++ .call h m :: b ∧ NoRequest b ∧ (¬ Disconnects m → Acts SameThreads q) := fun e h1 h2 q hq => by
    obtain ⟨hs, a, hh, m, b, hl, hb, hc⟩ := h.ctl q hq
    exact ⟨hs, a, hh, m, b ++ [e], by simp [hl], noRequest_snoc hb h1 h2, hc⟩
  cases hm with
  | call header m hc =>
    refine ⟨fun q hq => ?_, ev' _ (by simp) (by simp)⟩
    cases hq
    exact ⟨acts_request hd header m, p.log, header, m, [], rfl, fun _ h => absurd h (by simp), acts_request_other hd header m⟩
  | ctl hc hr hs =>
    refine ⟨fun q hq => ?_, h.ev⟩
    cases hq
    obtain ⟨h1, a, hh, m, b, hl, hb, h2⟩ := h.ctl _ hc
    exact ⟨(h1.step hs).2, a, hh, m, b, hl, hb, fun hn => ((h2 hn).step hs).2⟩
  | ret hc => exact ⟨by simp, ev' _ (by simp) (by simp)⟩
  | threw hc => exact ⟨by simp, ev' _ (by simp) (by simp)⟩
  | begins m hc =>
    refine ⟨ctl' _ (by simp) (by simp), fun q hq => ?_⟩
    cases hq
    exact ⟨p.log, m, [], rfl, fun _ h => absurd h (by simp), acts_event hd m⟩
  | ev hc hr hs =>
    refine ⟨h.ctl, fun q hq => ?_⟩
    cases hq
    obtain ⟨a, m, b, hl, hb, h1⟩ := h.ev _ hc
    exact ⟨a, m, b, hl, hb, (h1.step hs).2⟩
  | ends hc => exact ⟨ctl' _ (by simp) (by simp), by simp⟩
  | fails hc => exact ⟨ctl' _ (by simp) (by simp), by simp⟩
  | world u files replies acks => exact ⟨h.ctl, h.ev⟩

theorem InHand.moves (hd : Extends d) {p q : Pair σ} (h : InHand p) (hm : Moves d p q) : InHand q := by
  induction hm with
  | refl => exact h
  | tail _ hm ih => exact ih.move hd hm

/-- The request in hand leaves the set alone, unless it is a disconnect request. -/
theorem InHand.same {p : Pair σ} (h : InHand p) (hn : NotDisconnecting p.log) {q : K (State σ) Json} (hq : p.ctl = some q) :
    Acts SameThreads q := by
  obtain ⟨_, a, hh, m, b, hl, hb, hs⟩ := h.ctl q hq
  refine hs fun hD => ?_
  obtain ⟨r, hr⟩ := hn a b hh m hl hD
  exact (hb _ hr).2 r rfl

/-- The event in hand does not put the thread in the set. -/
theorem InHand.absent {p : Pair σ} (h : InHand p) {t : Int} (hn : NotInHand "stopped" t p.log) {q : K (State σ) Unit} (hq : p.ev = some q) :
    Acts (fun s s' : State σ => t ∉ s.threads → t ∉ s'.threads) q := by
  obtain ⟨a, m, b, hl, hb, hs⟩ := h.ev q hq
  refine hs.mono fun s s' hst hP => ?_
  rcases hst with hst | ⟨t', ha, hst⟩ | ⟨t', ha, hst⟩ <;> rw [hst]
  · exact hP
  · rw [mem_insertThread]
    rintro (rfl | hc)
    · obtain ⟨r, hr⟩ := hn a b m hl ha
      exact (hb _ hr).2 r rfl
    · exact hP hc
  · rw [mem_filter_ne]
    exact fun hc => hP hc.1

/-! ## An event that makes one access -/

/-- The access makes `P` hold, or has done so. -/
structure Pending (P : List Int → Prop) (f : State σ → State σ) (p : Pair σ) : Prop where
  ev : p.ev = some (K.modify f) ∨ p.ev = some (.done (.ok ())) ∧ P p.s.threads
  ctl : ∀ q, p.ctl = some q → Acts (fun s s' => P s.threads → P s'.threads) q

theorem pending_move {P : List Int → Prop} {f : State σ → State σ} (hf : ∀ s, P (f s).threads) {p q : Pair σ} (h : Pending P f p)
    (hm : Move d p q) (hl : ∀ e, q.log = p.log ++ [e] → Harmless d P e ∧ (∀ m, e ≠ .begins m) ∧ ∀ r, e ≠ .ends r) :
    Pending P f q := by
  cases hm with
  | call header m hc => exact ⟨h.ev, fun q hq => by cases hq; exact (hl _ rfl).1⟩
  | ctl hc hr hs =>
    obtain ⟨h1, h2⟩ := (h.ctl _ hc).step hs
    exact ⟨h.ev.imp id fun hx => ⟨hx.1, h1 hx.2⟩, fun q hq => by cases hq; exact h2⟩
  | ret hc => exact ⟨h.ev, by simp⟩
  | threw hc => exact ⟨h.ev, by simp⟩
  | begins m hc => exact absurd rfl ((hl _ rfl).2.1 _)
  | ev hc hr hs =>
    refine ⟨.inr ?_, h.ctl⟩
    rcases h.ev with h | ⟨h, _⟩
    · rw [hc] at h
      cases h
      simp only [K.modify, K.lift, K.step, Option.some.injEq, Prod.mk.injEq] at hs
      obtain ⟨rfl, rfl⟩ := hs
      exact ⟨rfl, hf _⟩
    · rw [hc] at h
      cases h
      exact absurd hr id
  | ends hc => exact absurd rfl ((hl _ rfl).2.2 _)
  | fails hc => exact absurd rfl ((hl _ rfl).2.2 _)
  | world u files replies acks => exact ⟨h.ev, h.ctl⟩

theorem pending_moves {P : List Int → Prop} {f : State σ → State σ} (hf : ∀ s, P (f s).threads) {p q : Pair σ} (h : Pending P f p)
    (hm : Moves d p q) {l : List Mark} (hl : q.log = p.log ++ l) (hs : ∀ e ∈ l, Harmless d P e) (hn : NoEvent l) : Pending P f q := by
  induction hm generalizing l with
  | refl => exact h
  | @tail q r hm' hm ih =>
    obtain ⟨l', hl'⟩ := moves_log hm'
    have hsub : ∃ x, l = l' ++ x ∧ r.log = q.log ++ x := by
      rcases move_log hm with e | ⟨e, he⟩
      · exact ⟨[], by rw [e, hl'] at hl; simpa using (List.append_cancel_left hl).symm, by simp [e]⟩
      · exact ⟨[e], by rw [he, hl', List.append_assoc] at hl; exact (List.append_cancel_left hl).symm, he⟩
    obtain ⟨x, rfl, hx⟩ := hsub
    refine pending_move hf (ih hl' (fun e he => hs e (by simp [he])) fun e he => hn e (by simp [he])) hm fun e he => ?_
    rw [he] at hx
    have hxe := List.append_cancel_left hx
    have hmem : e ∈ l' ++ x := by rw [← hxe]; simp
    exact ⟨hs e hmem, hn e hmem⟩

/-- The event begins, makes its access and ends. -/
theorem after_event {P : List Int → Prop} {f : State σ → State σ} (hf : ∀ s, P (f s).threads) {p q : Pair σ} (hm : Moves d p q)
    {m : Json} {a b : List Mark} {r : Except Exc Unit} (he : handleEvent d m = K.modify f)
    (hl : q.log = p.log ++ (a ++ .begins m :: (b ++ [.ends r])))
    (hctl : ∀ p', Moves d p p' → p'.log = p.log ++ a → ∀ k, p'.ctl = some k → Acts (fun s s' => P s.threads → P s'.threads) k)
    (hs : ∀ e ∈ b, Harmless d P e) (hn : NoEvent b) :
    ∃ p', Moves d p p' ∧ Moves d p' q ∧ p'.log = q.log ∧ Holds P p' := by
  obtain ⟨m₁, m₂, h1, h2, h3, h4, h5, h6⟩ := moment hm hl
  have hp : Pending P f m₂ := by
    cases h2 with
    | begins m' hc =>
      have := List.append_cancel_left h5
      cases this
      exact ⟨.inl (by rw [← he]), hctl m₁ h1 h4⟩
    | call => have := List.append_cancel_left h5; cases this
    | ctl => exact absurd (congrArg List.length h5) (by simp)
    | ret => have := List.append_cancel_left h5; cases this
    | threw => have := List.append_cancel_left h5; cases this
    | ev => exact absurd (congrArg List.length h5) (by simp)
    | ends => have := List.append_cancel_left h5; cases this
    | fails => have := List.append_cancel_left h5; cases this
    | world => exact absurd (congrArg List.length h5) (by simp)
  obtain ⟨m₃, m₄, g1, g2, g3, g4, g5, g6⟩ := moment h3 (b := []) h6
  have hp' := pending_moves hf hp g1 g4 hs hn
  refine ⟨m₄, ((h1.tail h2).trans g1).tail g2, g3, by simpa using g6.symm, ?_⟩
  cases g2 with
  | ends hc =>
    rcases hp'.ev with h | ⟨_, h⟩
    · rw [hc] at h
      cases h
    · exact ⟨h, by simp, hp'.ctl⟩
  | fails hc =>
    rcases hp'.ev with h | ⟨h, _⟩ <;> · rw [hc] at h; cases h
  | begins => have := List.append_cancel_left g5; cases this
  | call => have := List.append_cancel_left g5; cases this
  | ctl => exact absurd (congrArg List.length g5) (by simp)
  | ret => have := List.append_cancel_left g5; cases this
  | threw => have := List.append_cancel_left g5; cases this
  | ev => exact absurd (congrArg List.length g5) (by simp)
  | world => exact absurd (congrArg List.length g5) (by simp)

/-! ## A disconnect request -/

def clearMv (g : Bool) (s s' : State σ) (g' : Bool) : Prop := (g' = g ∧ s'.threads = s.threads) ∨ (g' = true ∧ s'.threads = [])

theorem acts_wp {α : Type} {p : K (State σ) α} (h : Acts SameThreads p) (g : Bool) :
    Link.Wp (fun _ _ => True) clearMv (fun g' _ => g' = g) p g := by
  induction p with
  | done r => exact rfl
  | act f k ih =>
    intro s _ _
    exact ⟨g, .inl ⟨rfl, h.1 s⟩, fun b _ => ih _ (h.2 _), fun e _ => ih _ (h.2 _), fun _ _ => rfl⟩

/-- A disconnect request that ends with an answer has emptied the set. -/
theorem disconnect_wp (hd : Extends d) (header : Json) {m : Json} (hm : Disconnects m) :
    Link.Wp (fun _ _ => True) clearMv (fun g r => ∀ a, r = .ok a → g = true) (processRequest d header m) false := by
  have h1 : isText (.str (lit "disconnect")) "initialize" = false := by rw [isText_str]; decide +kernel
  have h2 : isText (.str (lit "disconnect")) "disconnect" = true := by rw [isText_str]; decide +kernel
  have h3 : (Json.str (lit "disconnect")).getStr = .ok (lit "disconnect") := rfl
  simp only [processRequest, at_command hm, ofRes_bind, initPart, h1, h3]
  refine Link.Wp.bind (Link.Wp.pure ?_)
  refine Link.Wp.bind (Link.Wp.mono (fun g r hr => ?_) (acts_wp (acts_dispatch hd header m (.obj []) (lit "disconnect")) false))
  cases r with
  | ok a =>
    simp only [Link.Then, disconnectPart, h2, if_true]
    refine Link.Wp.bind (Link.Wp.bind (Link.Wp.mono (fun g' r' _ => ?_) (acts_wp (acts_callStop) g)))
    cases r' with
    | ok _ =>
      refine Link.Wp.bind (Link.Wp.modify (g' := g') (fun s _ => .inl ⟨rfl, rfl⟩) ?_)
      refine Link.Wp.bind (Link.Wp.modify (g' := true) (fun s _ => .inr ⟨rfl, rfl⟩) ?_)
      show Link.Wp (fun _ _ => True) clearMv _ (K.modify _) true
      refine Link.Wp.modify (g' := true) (fun s _ => ?_) ?_
      · exact .inl ⟨rfl, rfl⟩
      · exact fun _ _ => rfl
    | exc e => exact fun a ha => by cases ha
    | ub w => exact fun a ha => by cases ha
    | hang => exact fun a ha => by cases ha
  | exc e => exact fun a ha => by cases ha
  | ub w => exact fun a ha => by cases ha
  | hang => exact fun a ha => by cases ha

/-- The disconnect request in hand empties the set, or has done so. -/
structure Clearing (t : Int) (p : Pair σ) : Prop where
  ctl : ∃ q g, p.ctl = some q ∧ Link.Wp (fun _ _ => True) clearMv (fun g r => ∀ a, r = .ok a → g = true) q g ∧
    (g = true → t ∉ p.s.threads)
  ev : ∀ q, p.ev = some q → Acts (fun s s' : State σ => t ∉ s.threads → t ∉ s'.threads) q

theorem clearing_move {t : Int} {p q : Pair σ} (h : Clearing t p) (hm : Move d p q)
    (hl : ∀ e, q.log = p.log ++ [e] → Harmless d (t ∉ ·) e ∧ (∀ h m, e ≠ .call h m) ∧ ∀ r, e ≠ .ret r) : Clearing t q := by
  obtain ⟨k, g, h1, h2, h3⟩ := h.ctl
  cases hm with
  | call header m hc => exact absurd rfl ((hl _ rfl).2.1 _ _)
  | @ctl k₁ k' s' hc hr hst =>
    rw [hc] at h1
    cases h1
    obtain ⟨g', hg, hw⟩ := h2.step trivial hr hst
    refine ⟨⟨k', g', rfl, hw, fun hg' => ?_⟩, h.ev⟩
    rcases hg with ⟨rfl, hs⟩ | ⟨_, hs⟩
    · show t ∉ s'.threads
      rw [hs]; exact h3 hg'
    · show t ∉ s'.threads
      rw [hs]; simp
  | ret hc => exact absurd rfl ((hl _ rfl).2.2 _)
  | threw hc => exact absurd rfl ((hl _ rfl).2.2 _)
  | begins m hc => exact ⟨⟨k, g, h1, h2, h3⟩, fun q hq => by cases hq; exact (hl _ rfl).1⟩
  | ev hc hr hs =>
    obtain ⟨e1, e2⟩ := (h.ev _ hc).step hs
    exact ⟨⟨k, g, h1, h2, fun hg => e1 (h3 hg)⟩, fun q hq => by cases hq; exact e2⟩
  | ends hc => exact ⟨⟨k, g, h1, h2, h3⟩, by simp⟩
  | fails hc => exact ⟨⟨k, g, h1, h2, h3⟩, by simp⟩
  | world u files replies acks => exact ⟨⟨k, g, h1, h2, h3⟩, h.ev⟩

theorem clearing_moves {t : Int} {p q : Pair σ} (h : Clearing t p) (hm : Moves d p q) {l : List Mark} (hl : q.log = p.log ++ l)
    (hs : ∀ e ∈ l, Harmless d (t ∉ ·) e) (hn : NoRequest l) : Clearing t q := by
  induction hm generalizing l with
  | refl => exact h
  | @tail q r hm' hm ih =>
    obtain ⟨l', hl'⟩ := moves_log hm'
    have hsub : ∃ x, l = l' ++ x ∧ r.log = q.log ++ x := by
      rcases move_log hm with e | ⟨e, he⟩
      · exact ⟨[], by rw [e, hl'] at hl; simpa using (List.append_cancel_left hl).symm, by simp [e]⟩
      · exact ⟨[e], by rw [he, hl', List.append_assoc] at hl; exact (List.append_cancel_left hl).symm, he⟩
    obtain ⟨x, rfl, hx⟩ := hsub
    refine clearing_move (ih hl' (fun e he => hs e (by simp [he])) fun e he => hn e (by simp [he])) hm fun e he => ?_
    rw [he] at hx
    have hxe := List.append_cancel_left hx
    have hmem : e ∈ l' ++ x := by rw [← hxe]; simp
    exact ⟨hs e hmem, hn e hmem⟩

/-- The request begins, empties the set and ends. -/
theorem after_disconnect (hd : Extends d) {t : Int} {p q : Pair σ} (hm : Moves d p q) {header m answer : Json} {a b : List Mark}
    (hD : Disconnects m) (hl : q.log = p.log ++ (a ++ .call header m :: (b ++ [.ret (.ok answer)])))
    (hev : ∀ p', Moves d p p' → p'.log = p.log ++ a → ∀ k, p'.ev = some k →
      Acts (fun s s' : State σ => t ∉ s.threads → t ∉ s'.threads) k)
    (hs : ∀ e ∈ b, Harmless d (t ∉ ·) e) (hn : NoRequest b) :
    ∃ p', Moves d p p' ∧ Moves d p' q ∧ p'.log = q.log ∧ Holds (t ∉ ·) p' := by
  obtain ⟨m₁, m₂, h1, h2, h3, h4, h5, h6⟩ := moment hm hl
  have hp : Clearing t m₂ := by
    cases h2 with
    | call header' m' hc =>
      have := List.append_cancel_left h5
      cases this
      exact ⟨⟨_, false, rfl, disconnect_wp hd header hD, by simp⟩, hev m₁ h1 h4⟩
    | begins => have := List.append_cancel_left h5; cases this
    | ctl => exact absurd (congrArg List.length h5) (by simp)
    | ret => have := List.append_cancel_left h5; cases this
    | threw => have := List.append_cancel_left h5; cases this
    | ev => exact absurd (congrArg List.length h5) (by simp)
    | ends => have := List.append_cancel_left h5; cases this
    | fails => have := List.append_cancel_left h5; cases this
    | world => exact absurd (congrArg List.length h5) (by simp)
  obtain ⟨m₃, m₄, g1, g2, g3, g4, g5, g6⟩ := moment h3 (b := []) h6
  have hp' := clearing_moves hp g1 g4 hs hn
  refine ⟨m₄, ((h1.tail h2).trans g1).tail g2, g3, by simpa using g6.symm, ?_⟩
  obtain ⟨k, g, a1, a2, a3⟩ := hp'.ctl
  cases g2 with
  | ret hc =>
    rw [hc] at a1
    cases a1
    exact ⟨a3 (a2 _ rfl), hp'.ev, by simp⟩
  | threw => have := List.append_cancel_left g5; cases this
  | begins => have := List.append_cancel_left g5; cases this
  | call => have := List.append_cancel_left g5; cases this
  | ctl => exact absurd (congrArg List.length g5) (by simp)
  | ends => have := List.append_cancel_left g5; cases this
  | fails => have := List.append_cancel_left g5; cases this
  | ev => exact absurd (congrArg List.length g5) (by simp)
  | world => exact absurd (congrArg List.length g5) (by simp)

end

end Xeus.Dbg
